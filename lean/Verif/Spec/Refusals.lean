import Verif.Spec.Study
import Verif.Model.Fluent

/-!
# Which exception a refused call raises (independent of the code)
-/

namespace Hadar.Spec

open Hadar

/-- the handle that a call is made on and uses -/
def handleOf : Call → Option ℕ
  | .netNode r _ | .netLink r _ _ _ _ | .nodeConsumption r _ _ _ | .nodeProduction r _ _ _ | .nodeStorage r _ | .nodeNode r _
  | .nodeLink r _ _ _ _ | .nodeToConverter r _ _ => some r
  | _ => none

/-- the data given by a call -/
def dataOf : Call → List Raw
  | .studyAddLink _ _ _ c q | .netLink _ _ _ c q | .nodeLink _ _ _ c q | .nodeConsumption _ _ c q | .nodeProduction _ _ c q
  | .netConverter _ _ _ _ q c | .nodeConverter _ _ _ _ q c => [c, q]
  | .nodeStorage _ a => [a.capacity, a.flowIn, a.flowOut, a.cost, a.eff]
  | .nodeToConverter _ _ r => [r]
  | _ => []

/-- a numpy array of no dimension, `np.array(5)` -/
def NoDimension (r : Raw) : Prop := ∃ a, r = .array a ∧ a.shape = []

/-- the call does not say where: its handle has no network (`converter` returns such handles) or, for what is put in a node, no node;
or it is made on the study and names a network that is not there -/
inductive Nowhere (w : World) : Call → Prop
  | addNode {g d} : g ∉ w.study.networks.map Prod.fst → Nowhere w (.studyAddNode g d)
  | addLink {g a b c q} : g ∉ w.study.networks.map Prod.fst → Nowhere w (.studyAddLink g a b c q)
  | netNode {r d o} : w.heap[r]? = some ⟨none, o⟩ → Nowhere w (.netNode r d)
  | nodeNode {r d o} : w.heap[r]? = some ⟨none, o⟩ → Nowhere w (.nodeNode r d)
  | netLink {r a b c q o} : w.heap[r]? = some ⟨none, o⟩ → Nowhere w (.netLink r a b c q)
  | nodeLink {r a b c q o} : w.heap[r]? = some ⟨none, o⟩ → Nowhere w (.nodeLink r a b c q)
  | consumption {r n c q sel} : w.heap[r]? = some sel → sel.network = none ∨ sel.node = none → Nowhere w (.nodeConsumption r n c q)
  | production {r n c q sel} : w.heap[r]? = some sel → sel.network = none ∨ sel.node = none → Nowhere w (.nodeProduction r n c q)
  | storage {r a sel} : w.heap[r]? = some sel → sel.network = none ∨ sel.node = none → Nowhere w (.nodeStorage r a)
  | toConverter {r n q sel} : w.heap[r]? = some sel → sel.network = none ∨ sel.node = none → Nowhere w (.nodeToConverter r n q)

end Hadar.Spec
