import Verif.Spec.Program
import Verif.Spec.Viewer
import Verif.Spec.Fit

/-!
# Specification of C130: from a program to its charts
-/

namespace Hadar.Spec

open Hadar

/-- a chart over time with one curve per scenario, in order, named after it, with one value per time step; what curve `k` shows at `t` is as
`R k t` says -/
def CurvesBy (h n : ℕ) (R : ℕ → ℕ → ℚ → Prop) (curves : List (Cell × List ℚ)) : Prop :=
  curves.length = n ∧ ∀ k < n, ∃ ys, curves[k]? = some (Cell.num k, ys) ∧ ys.length = h ∧ ∀ t < h, ∃ y, ys[t]? = some y ∧ R k t y

/-- not negative and at most what the data of a call means -/
def WithinMeant (h n : ℕ) (q : Raw) (k t : ℕ) (y : ℚ) : Prop := 0 ≤ y ∧ ∃ Q, Means h n q k t Q ∧ y ≤ Q

/-- the curves are the given rows of numbers, in the same order -/
def CurvesAre (rows : Rows) (curves : List (Cell × List ℚ)) : Prop :=
  curves.length = rows.length ∧ ∀ k < rows.length, ∃ ys, curves[k]? = some (Cell.num k, ys) ∧ rows[k]? = some (ys.map some)

end Hadar.Spec
