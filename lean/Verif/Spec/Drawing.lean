import Mathlib.Probability.Distributions.Gaussian.Real
import Verif.Model.Drawing
import Verif.Spec.Viewer

/-!
# What the curves, arrows and axes of charts should be (independent of the code)
-/

namespace Hadar.Spec

open Hadar
open scoped NNReal

/-- C94: mean and variance of values -/
structure Moments (values : List ℚ) (m : ℝ) (v : ℝ≥0) : Prop where
  mean : m * values.length = (values.map fun q : ℚ => (q : ℝ)).sum
  variance : v * values.length = (values.map fun q : ℚ => ((q : ℝ) - m) ^ 2).sum

/-- C94: every point of a drawing is at a multiple of the density of the normal law of mean `m` and variance `v` -/
def OnNormal (c m : ℝ) (v : ℝ≥0) (d : Viewer.GaussianDrawing) : Prop :=
  ∀ p ∈ d.curve ++ d.green ++ d.red, p.2 = some (c * ProbabilityTheory.gaussianPDFReal m v p.1)

/-- C94: the abscissas of the curve: 100 places, from 0 to 1.2 times the highest value -/
def CurvePlaces (values : List ℚ) (d : Viewer.GaussianDrawing) : Prop :=
  d.curve.length = 100 ∧ ∃ hi ∈ values, (∀ q ∈ values, q ≤ hi) ∧
    ∀ (i : ℕ) (p : ℝ × Option ℝ), d.curve[i]? = some p → p.1 = 1.2 * (hi : ℝ) * i / 99

/-- C94: a gaussian chart: values with a non-negative margin are green, the others are red, and all points are on the
density of the normal law of the same mean and variance, multiplied by `c` -/
structure GaussianDrawn {ι : Type} (at_ : List ι) (value margin : ι → ℚ) (c : ℝ) (d : Viewer.GaussianDrawing) :
    Prop where
  green : d.green.map Prod.fst = (at_.filter fun i => decide (0 ≤ margin i)).map fun i => (value i : ℝ)
  red : d.red.map Prod.fst = (at_.filter fun i => decide (margin i < 0)).map fun i => (value i : ℝ)
  places : CurvePlaces (at_.map value) d
  normal : ∃ m v, Moments (at_.map value) m v ∧ 0 < v ∧ OnNormal c m v d

/-- C95: an arrow drawn from a place to another one: a segment between them and a triangle around the segment,
whose tip is towards the second place -/
structure ArrowFrom (S E : ℚ × ℚ) (a : Viewer.Arrow) : Prop where
  start : a.start = S
  stop : a.stop = E
  tip : a.tip.1 = S.1 + 9 / 10 * (E.1 - S.1) ∧ a.tip.2 = S.2 + 9 / 10 * (E.2 - S.2)
  base : (a.left.1 + a.right.1) / 2 = S.1 + 8 / 10 * (E.1 - S.1) ∧
    (a.left.2 + a.right.2) / 2 = S.2 + 8 / 10 * (E.2 - S.2)
  upright : (a.left.1 - a.right.1) * (E.1 - S.1) + (a.left.2 - a.right.2) * (E.2 - S.2) = 0
  width : (a.left.1 - a.right.1) ^ 2 + (a.left.2 - a.right.2) ^ 2 =
    ((E.1 - S.1) ^ 2 + (E.2 - S.2) ^ 2) / 25

/-- C95: the arrows of a map: one for each pair of linked nodes, from the node that the net flow leaves to the one
it reaches, with this net flow as text -/
structure ArrowsDrawn (s : Study) (g : String) (flow : String → String → ℚ) (coord : Dict String (ℚ × ℚ))
    (arrows : List Viewer.Arrow) : Prop where
  drawn : ∀ a ∈ arrows, ∃ x y S E, (Linked s g x y ∨ Linked s g y x) ∧ Dict.get? coord x = some S ∧
    Dict.get? coord y = some E ∧ ArrowFrom S E a ∧ a.text = flow x y - flow y x ∧ 0 ≤ a.text
  all : ∀ x y, Linked s g x y → ∃ S E, Dict.get? coord x = some S ∧ Dict.get? coord y = some E ∧
    (flow y x ≤ flow x y → ∃ a ∈ arrows, ArrowFrom S E a ∧ a.text = flow x y - flow y x) ∧
    (flow x y < flow y x → ∃ a ∈ arrows, ArrowFrom E S a ∧ a.text = flow y x - flow x y)

/-- C96: evenly spaced dates between two dates, both included when there are several -/
structure EvenlySpaced (start stop : ℚ) (n : ℕ) (l : List ℚ) : Prop where
  length : l.length = n
  first : ∀ x, l.head? = some x → x = start
  last : 1 < n → l.getLast? = some stop
  step : ∀ i x y, l[i]? = some x → l[i + 1]? = some y → (y - x) * (n - 1) = stop - start

end Hadar.Spec
