import Verif.Model.Fluent

/-!
# `hadar/optimizer/domain/input.py`: what is left out of a call of the fluent builder

Python fills in the parameters that a call does not give. `none` is a parameter left out.
-/

namespace Hadar.Call

/-- `study.network(name="default")` (input.py 310) -/
def network (name : Option String) : Call := .studyNetwork (name.getD "default")

/-- `node.storage(name, capacity, flow_in, flow_out, cost=0, init_capacity=0, eff=0.99)` (input.py 585-594). Simplification: the
efficiency is the number 99/100 and not the floating point number nearest to it. -/
def storage (ref : ℕ) (name : String) (capacity flowIn flowOut : Raw) (cost : Option Raw) (initCapacity : Option ℚ) (eff : Option Raw) : Call :=
  .nodeStorage ref ⟨name, capacity, flowIn, flowOut, cost.getD (.num 0), initCapacity.getD 0, eff.getD (.num (99 / 100))⟩

/-- `network.converter(name, to_network, to_node, max, cost=0)` (input.py 507-514) and `node.converter` (input.py 653-660), on the selector
object of dict `ref`: a network (`onNode = false`) or a node -/
def converter (onNode : Bool) (ref : ℕ) (name toNetwork toNode : String) (max : Raw) (cost : Option Raw) : Call :=
  if onNode then .nodeConverter ref name toNetwork toNode max (cost.getD (.num 0))
  else .netConverter ref name toNetwork toNode max (cost.getD (.num 0))

/-- `node.to_converter(name, ratio=1)` (input.py 675) -/
def toConverter (ref : ℕ) (name : String) (ratio : Option Raw) : Call := .nodeToConverter ref name (ratio.getD (.num 1))

end Hadar.Call
