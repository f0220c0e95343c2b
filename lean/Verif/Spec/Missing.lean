import Verif.Spec.Viewer

/-!
# What a study has, and what it does not have (independent of the code)
-/

namespace Hadar.Spec

open Hadar

/-- C137: the study has such an element; links go by the name of the node they lead to, converters are at the nodes
they feed and at the nodes they draw from -/
inductive InStudy (s : Study) (g d : String) : IndexKind → String → Prop
  | cons {n c} (hn : HasNode s g d n) (hc : c ∈ n.consumptions) : InStudy s g d .cons c.name
  | prod {n c} (hn : HasNode s g d n) (hc : c ∈ n.productions) : InStudy s g d .prod c.name
  | stor {n c} (hn : HasNode s g d n) (hc : c ∈ n.storages) : InStudy s g d .stor c.name
  | link {n c} (hn : HasNode s g d n) (hc : c ∈ n.links) : InStudy s g d .link c.dest
  | arrival {p} (hp : p ∈ s.converters) (hg : p.2.destNetwork = g) (hd : p.2.destNode = d) :
      InStudy s g d .destConv p.1
  | departure {p q} (hp : p ∈ s.converters) (hq : ([g, d], q) ∈ p.2.srcRatios) : InStudy s g d .srcConv p.1

/-- C137: one of `n` positions -/
def Position (n : ℕ) (i : ℤ) : Prop := 0 ≤ i ∧ i < n

end Hadar.Spec
