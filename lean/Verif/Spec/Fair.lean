import Verif.Spec.Chance
import Verif.Spec.Sampling

/-!
# Fair draws of scenarios (independent of the code)

Cases, weights, chances and means are those of Spec/Chance.
-/

namespace Hadar.Spec

open Hadar

variable {Ω : Type} [Fintype Ω]

/-- C117: `nb` indexes among `n`, drawn with replacement, all as likely, apart from each other: each list of indexes has
the same chance -/
structure FairIndexes (w : Ω → ℚ) (n nb : ℕ) (I : Ω → List ℤ) : Prop where
  weights : CaseWeights w
  inRange : ∀ ω, (I ω).length = nb ∧ ∀ z ∈ I ω, 0 ≤ z ∧ z < n
  law : ∀ l : List ℤ, l.length = nb → (∀ z ∈ l, 0 ≤ z ∧ z < n) → chance w (fun ω => I ω = l) = (1 / (n : ℚ)) ^ nb

/-- C117: average of a number read off each scenario -/
def average (φ : List Val → ℚ) (rows : Rows) : ℚ := (rows.map φ).sum / rows.length

/-- C117: mean square of the distance to the average -/
def spread (φ : List Val → ℚ) (rows : Rows) : ℚ := average (fun row => (φ row - average φ rows) ^ 2) rows

end Hadar.Spec
