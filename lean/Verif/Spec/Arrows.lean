import Verif.Spec.Viewer

/-!
# Specification: arrows of exchange maps and balances
-/

namespace Hadar.Spec

open Hadar

/-- C144: arrows drawn from a group of nodes to the others -/
def leaving (group : List String) (arrows : Dict (Cell × Cell) ℚ) : ℚ :=
  sumL arrows fun p => if p.1.1 ∈ group.map Cell.str ∧ p.1.2 ∉ group.map Cell.str then p.2 else 0

/-- C144: arrows drawn from the other nodes to a group of nodes -/
def reaching (group : List String) (arrows : Dict (Cell × Cell) ℚ) : ℚ :=
  sumL arrows fun p => if p.1.2 ∈ group.map Cell.str ∧ p.1.1 ∉ group.map Cell.str then p.2 else 0

/-- C144: values of the nodes of a group -/
def valuesOf (group : List String) (nodes : List (String × ℚ)) : ℚ :=
  sumL nodes fun p => if p.1 ∈ group then p.2 else 0

/-- C144: what a node has left after its own consumptions, storages and converters, links aside -/
def ownSurplus (s : Study) (k : ℕ) (D : Dispatch) (g d : String) (n : InputNode) (t : ℕ) : ℚ :=
  sumI n.productions (fun _ i => D.prod g d i t) + sumI n.storages (fun _ i => D.fout g d i t) + fromConverters s D g d t -
    sumI n.consumptions (fun c i => val c.quantity k t - D.lol g d i t) - sumI n.storages (fun _ i => D.fin g d i t) -
    toConverters s D g d t

end Hadar.Spec
