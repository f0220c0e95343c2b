import Verif.Spec.Study

/-!
# Which node a handle acts on, and what a refused converter call leaves behind
-/

namespace Hadar.Spec

open Hadar

/-- the node named by the last `.node(...)` call among `cs` made on a handle with selector dict `r`, and `d` without such a call -/
def lastNode (r : ℕ) : String → List Call → String
  | d, [] => d
  | d, .netNode r' d' :: cs | d, .nodeNode r' d' :: cs => lastNode r (if r' = r then d' else d) cs
  | d, _ :: cs => lastNode r d cs

/-- the converter a call is about -/
def converterOf : Call → Option String
  | .netConverter _ name .. | .nodeConverter _ name .. | .nodeToConverter _ name _ => some name
  | _ => none

/-- `s'` is `s`, except that a converter called `name` may have been added last, without source, and that the destination, the cost and
the maximum of converter `name` may have changed if it had no destination (an empty name is no name) -/
def LeftBehind (name : String) (s s' : Study) : Prop :=
  ∃ base, (base = s.converters ∨ name ∉ s.converters.map Prod.fst ∧ base = s.converters ++ [(name, ⟨name, [], "", "", .int0, .int0⟩)]) ∧
    (s' = { s with converters := base } ∨ ∃ pre c c' post, base = pre ++ (name, c) :: post ∧ name ∉ pre.map Prod.fst ∧
      (c.destNetwork = "" ∨ c.destNode = "") ∧ c'.name = c.name ∧ c'.srcRatios = c.srcRatios ∧
      s' = { s with converters := pre ++ (name, c') :: post })

end Hadar.Spec
