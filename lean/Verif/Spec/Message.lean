import Verif.Spec.Reading
import Verif.Model.Wire

/-!
# What the answer of a worker says (independent of the functions that read it)

The grammar of the messages that workers send back to `solve_lp`, one object for each time step.
-/

namespace Hadar.Spec

open Hadar

/-- a number that may be left out -/
def NumOr (o : List (String × Json)) (k : String) (dflt q : ℚ) : Prop := (k, .num q) ∈ o ∨ ((∀ x, (k, x) ∉ o) ∧ q = dflt)

/-- a number that must be there -/
def NumAt (o : List (String × Json)) (k : String) (q : ℚ) : Prop := (k, .num q) ∈ o

/-- a text that must be there -/
def TextAt (o : List (String × Json)) (k s : String) : Prop := (k, .str s) ∈ o

def SaysLPConsumption (j : Json) (c : LPConsumption ℚ) : Prop :=
  ∃ o, j = .obj o ∧ Only o ["quantity", "variable", "cost", "name"] ∧ NumAt o "quantity" c.quantity ∧ NumAt o "variable" c.var ∧
    NumOr o "cost" 0 c.cost ∧ TextOr o "name" "" c.name

def SaysLPProduction (j : Json) (c : LPProduction ℚ) : Prop :=
  ∃ o, j = .obj o ∧ Only o ["quantity", "variable", "cost", "name"] ∧ NumAt o "quantity" c.quantity ∧ NumAt o "variable" c.var ∧
    NumOr o "cost" 0 c.cost ∧ TextOr o "name" "in" c.name

def SaysLPStorage (j : Json) (c : LPStorage ℚ) : Prop :=
  ∃ o, j = .obj o ∧
    Only o ["name", "capacity", "var_capacity", "flow_in", "var_flow_in", "flow_out", "var_flow_out", "cost", "init_capacity", "eff"] ∧
    TextAt o "name" c.name ∧ NumAt o "capacity" c.capacity ∧ NumAt o "var_capacity" c.varCapacity ∧ NumAt o "flow_in" c.flowIn ∧
    NumAt o "var_flow_in" c.varFlowIn ∧ NumAt o "flow_out" c.flowOut ∧ NumAt o "var_flow_out" c.varFlowOut ∧
    NumOr o "cost" 0 c.cost ∧ NumOr o "init_capacity" 0 c.initCapacity ∧ NumOr o "eff" (99 / 100) c.eff

def SaysLPLink (j : Json) (c : LPLink ℚ) : Prop :=
  ∃ o, j = .obj o ∧ Only o ["src", "dest", "quantity", "variable", "cost"] ∧ TextAt o "src" c.src ∧ TextAt o "dest" c.dest ∧
    NumAt o "quantity" c.quantity ∧ NumAt o "variable" c.var ∧ NumOr o "cost" 0 c.cost

/-- numbers given for sources: the key is a text with network and node -/
def BySource (x : Json) (d : Dict (List String) ℚ) : Prop :=
  ∃ l, x = .obj l ∧ List.Forall₂ (fun p q => Parts p.1 q.1 ∧ p.2 = .num q.2) l d

def SaysLPConverter (j : Json) (c : LPConverter ℚ) : Prop :=
  ∃ o, j = .obj o ∧
    Only o ["name", "src_ratios", "var_flow_src", "dest_network", "dest_node", "var_flow_dest", "cost", "max"] ∧
    At o "src_ratios" (BySource · c.srcRatios) ∧ At o "var_flow_src" (BySource · c.varFlowSrc) ∧
    TextAt o "name" c.name ∧ TextAt o "dest_network" c.destNetwork ∧ TextAt o "dest_node" c.destNode ∧
    NumAt o "var_flow_dest" c.varFlowDest ∧ NumAt o "cost" c.cost ∧ NumAt o "max" c.max

def SaysLPNode (j : Json) (x : LPNode ℚ) : Prop :=
  ∃ o, j = .obj o ∧ Only o ["consumptions", "productions", "storages", "links"] ∧
    At o "consumptions" (Elements SaysLPConsumption · x.consumptions) ∧
    At o "productions" (Elements SaysLPProduction · x.productions) ∧
    At o "storages" (Elements SaysLPStorage · x.storages) ∧
    At o "links" (Elements SaysLPLink · x.links)

def SaysLPNetwork (j : Json) (x : Dict String (LPNode ℚ)) : Prop :=
  ∃ o, j = .obj o ∧ Only o ["nodes"] ∧ At o "nodes" (Named SaysLPNode · x)

/-- The answer for a time step. Other keys at this level do not count. -/
def SaysStep (j : Json) (ts : LPTimeStep ℚ) : Prop :=
  ∃ o, j = .obj o ∧ At o "networks" (Named SaysLPNetwork · ts.networks) ∧ At o "converters" (Named SaysLPConverter · ts.converters)

/-- the answer for all time steps -/
def SaysSteps (j : Json) (l : List (LPTimeStep ℚ)) : Prop := Elements SaysStep j l

end Hadar.Spec
