import Verif.Spec.Extension
import Verif.Spec.Worth

/-!
# What is added to a study, alone (independent of the code)
-/

namespace Hadar.Spec

open Hadar

/-- what a node has that it did not have in `s` -/
def onlyNewNode (s : Study) (g d : String) (n : InputNode) : InputNode :=
  ⟨newIn (inNode s g d).consumptions n.consumptions, newIn (inNode s g d).productions n.productions,
    newIn (inNode s g d).storages n.storages, newIn (inNode s g d).links n.links⟩

/-- what `s'` has that `s` does not: the nodes of `s'` with their new elements only, and new converters only -/
def onlyNew (s s' : Study) : Study :=
  { s' with
    networks := s'.networks.map fun p => (p.1, ⟨p.2.nodes.map fun q => (q.1, onlyNewNode s p.1 q.1 q.2)⟩)
    converters := s'.converters.filter fun p => decide (p.1 ∉ s.converters.map Prod.fst) }

end Hadar.Spec
