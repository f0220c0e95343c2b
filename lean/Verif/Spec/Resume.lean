import Verif.Spec.LP

/-!
# Specification of C138: going on with a study later
-/

namespace Hadar.Spec

open Hadar

/-- C138: the same call in a program where `m` selectors were made before -/
def later (m : ℕ) : Call → Call
  | .netNode ref name => .netNode (m + ref) name
  | .netLink ref src dest cost quantity => .netLink (m + ref) src dest cost quantity
  | .netNetwork ref name => .netNetwork (m + ref) name
  | .netConverter ref name g d max cost => .netConverter (m + ref) name g d max cost
  | .nodeConsumption ref name cost quantity => .nodeConsumption (m + ref) name cost quantity
  | .nodeProduction ref name cost quantity => .nodeProduction (m + ref) name cost quantity
  | .nodeStorage ref args => .nodeStorage (m + ref) args
  | .nodeNode ref name => .nodeNode (m + ref) name
  | .nodeLink ref src dest cost quantity => .nodeLink (m + ref) src dest cost quantity
  | .nodeNetwork ref name => .nodeNetwork (m + ref) name
  | .nodeConverter ref name g d max cost => .nodeConverter (m + ref) name g d max cost
  | .nodeToConverter ref name ratio => .nodeToConverter (m + ref) name ratio
  | c => c

/-- C138: the same object in such a program -/
def Handle.later (m : ℕ) : Handle → Handle
  | .study => .study
  | .net ref => .net (m + ref)
  | .node ref => .node (m + ref)

/-- C138: the study where the integer `0` of the converters `K` without destination is the series `0` -/
def filledOn (K : List String) (s : Study) : Study :=
  { s with
    converters := s.converters.map fun p => (p.1, if p.1 ∈ K then { p.2 with
      cost := filledField s.horizon s.nbScn p.2.cost
      max := filledField s.horizon s.nbScn p.2.max } else p.2) }

/-- C138: what the calls return or raise, one after the other -/
def outcomes : World → List Call → List (Except PyErr Handle)
  | _, [] => []
  | w, c :: cs => (World.step c w).1 :: outcomes (w.after c) cs

end Hadar.Spec
