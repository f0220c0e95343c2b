import Verif.Spec.LP
import Verif.Spec.Accept
import Verif.Model.Defaults

/-!
# Specification of C102: from a program to its result
-/

namespace Hadar.Spec

open Hadar World

/-- a program makes the calls `before`, then `c`, which is accepted, then the calls `after`: the study is `s`. Some calls before and after
may have been refused. -/
structure Accepted (h n : ℕ) (before : List Call) (c : Call) (later : List Call) (s : Study) : Prop where
  raw : ∀ c' ∈ before ++ c :: later, RawCall c'
  accepted : ∃ hd, (step c ((start h n).run before)).1 = .ok hd
  study : s = ((start h n).run (before ++ c :: later)).study

/-- the study was solved, by a solver that respects limits and constraints; texts of sources of converters are not confused (C21) -/
structure SolvedBy (solver : Solver) (b : Benchmark) (s : Study) (r : Result) : Prop where
  steps : 0 < s.horizon
  scenarios : 0 < s.nbScn
  sources : DistinctSources s
  solved : solveLp solver b s = .ok r
  answers : ∀ k < s.nbScn, Answers solver s k Cmd.Feasible

/-- the number the user means, or the documented one if they gave nothing -/
def MeansOr (h n : ℕ) (given : Option Raw) (otherwise : ℚ) (k t : ℕ) (q : ℚ) : Prop :=
  match given with
  | some x => Means h n x k t q
  | none => q = otherwise

/-- the node which the selector object of dict `ref` stands for -/
def StandsFor (w : World) (ref : ℕ) (g d : String) : Prop := w.heap[ref]? = some ⟨some g, some d⟩

end Hadar.Spec
