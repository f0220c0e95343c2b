import Verif.Model.Marks
import Verif.Spec.Viewer

/-!
# What bars and colours say (independent of the drawing functions)
-/

namespace Hadar.Spec

open Hadar

/-- the whole part of a number: what is left once the digits after the point are removed -/
def Whole (q : ℚ) (n : ℤ) : Prop :=
  (0 ≤ q → 0 ≤ n ∧ (n : ℚ) ≤ q ∧ q < n + 1) ∧ (q ≤ 0 → n ≤ 0 ∧ q ≤ n ∧ (n : ℚ) - 1 < q)

/-- C107: the bar stands at `time`, goes from `before` to `after`, and its text says the time, the whole parts of both
and of their difference -/
structure BarSays (label : ℚ → String) (time before after : ℚ) (b : Viewer.Bar) : Prop where
  place : b.at' = time
  opens : b.opens = before
  close : b.close = after
  text : ∃ x y z, Whole before x ∧ Whole after y ∧ Whole (after - before) z ∧
    b.text = label time ++ "<br>Begin=" ++ toString x ++ "<br>End=" ++ toString y ++ "<br>Flow=" ++ toString z

/-- C107: the bar lies between `low` and `high` -/
def WithinBounds (b : Viewer.Bar) : Prop :=
  b.low ≤ b.opens ∧ b.low ≤ b.close ∧ b.opens ≤ b.high ∧ b.close ≤ b.high

/-- a level before a time step, from the level at the beginning and the levels at the end of time steps -/
def heldBefore (init : ℚ) (level : ℕ → ℚ) : ℕ → ℚ
  | 0 => init
  | t + 1 => level t

/-- the numbers of matplotlib are between 0 and 1 -/
def UnitColors (cmap : Viewer.ColorMap) : Prop :=
  ∀ x, (0 ≤ (cmap x).red ∧ (cmap x).red ≤ 1) ∧ (0 ≤ (cmap x).green ∧ (cmap x).green ≤ 1) ∧
    0 ≤ (cmap x).blue ∧ (cmap x).blue ≤ 1

/-- C108: `rgb(...)` counts in units of 1/255: the colour written is that of the map up to one unit -/
def Written (written mapped : Viewer.Rgb) : Prop :=
  |written.red - 255 * mapped.red| ≤ 1 ∧ |written.green - 255 * mapped.green| ≤ 1 ∧
    |written.blue - 255 * mapped.blue| ≤ 1

/-- C108: at most one unit of each of red, green and blue -/
def Black (c : Viewer.Rgb) : Prop :=
  (0 ≤ c.red ∧ c.red ≤ 1) ∧ (0 ≤ c.green ∧ c.green ≤ 1) ∧ 0 ≤ c.blue ∧ c.blue ≤ 1

end Hadar.Spec
