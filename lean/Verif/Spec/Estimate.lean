import Verif.Spec.Like
import Verif.Spec.Fair
import Verif.Spec.Fit

/-!
# Costs estimated on sampled scenarios (independent of the code)
-/

namespace Hadar.Spec

open Hadar

/-- the program `cs'` makes the calls of `cs`; its scenarios are the scenarios `ix` of `cs` -/
def SampledProgram (h n : ℕ) (cs : List Call) (ix : List ℤ) (cs' : List Call) : Prop :=
  ∀ k i : ℕ, ix[k]? = some (i : ℤ) → List.Forall₂ (LikeCall (.same h n i ix.length k)) cs cs'

/-- a study solved at least cost in all scenarios -/
def SolvedBest (s : Study) (r : Result) : Prop :=
  Ready s ∧ ∃ solver b, solveLp solver b s = .ok r ∧ ∀ k < s.nbScn, Answers solver s k Cmd.Optimal

/-- the mean over scenarios of a number read off each scenario -/
def scenarioMean (n : ℕ) (x : ℕ → ℚ) : ℚ := (∑ k ∈ Finset.range n, x k) / n

/-- mean square of the distance to the mean -/
def scenarioSpread (n : ℕ) (x : ℕ → ℚ) : ℚ := scenarioMean n fun k => (x k - scenarioMean n x) ^ 2

/-- cost of scenario `k` of a solved study -/
def scenarioCost (s : Study) (r : Result) (k : ℕ) : ℚ := cost s k (dispatchOf s r k)

/-- energy asked by the consumptions of a node and not given, in scenario `k` -/
def nodeUnserved (s : Study) (r : Result) (g d : String) (n : InputNode) (k : ℕ) : ℚ :=
  ∑ i ∈ Finset.range n.consumptions.length, ∑ t ∈ Finset.range s.horizon, (dispatchOf s r k).lol g d i t

end Hadar.Spec
