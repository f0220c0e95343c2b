import Verif.Spec.LP

/-!
# The merit order as a formula

What every production and consumption of a node does, from the costs and quantities of the node and from what the node receives from its
storages, links and converters.
-/

namespace Hadar.Spec

open Hadar

/-- what the storages, links and converters of a node bring to it, less what they take -/
def received (s : Study) (D : Dispatch) (g d : String) (n : InputNode) (t : ℕ) : ℚ :=
  sumI n.storages (fun _ i => D.fout g d i t - D.fin g d i t) + (imports s D g d t - sumI n.links fun _ i => D.link g d i t) +
    (fromConverters s D g d t - toConverters s D g d t)

/-- what the productions of a node whose cost is such as said can produce -/
def supply (k : ℕ) (n : InputNode) (t : ℕ) (which : ℚ → Prop) [DecidablePred which] : ℚ :=
  sumL n.productions fun p => if which (val p.cost k t) then val p.quantity k t else 0

/-- what the consumptions of a node whose cost is such as said ask for -/
def demand (k : ℕ) (n : InputNode) (t : ℕ) (which : ℚ → Prop) [DecidablePred which] : ℚ :=
  sumL n.consumptions fun p => if which (val p.cost k t) then val p.quantity k t else 0

/-- what the productions of a node that cost `c` produce -/
def producedAt (k : ℕ) (D : Dispatch) (g d : String) (n : InputNode) (t : ℕ) (c : ℚ) : ℚ :=
  sumI n.productions fun p i => if val p.cost k t = c then D.prod g d i t else 0

/-- what the consumptions of a node that cost `c` are given -/
def servedAt (k : ℕ) (D : Dispatch) (g d : String) (n : InputNode) (t : ℕ) (c : ℚ) : ℚ :=
  sumI n.consumptions fun p i => if val p.cost k t = c then val p.quantity k t - D.lol g d i t else 0

/-- `x`, or the bound of the interval from 0 to `top` that is nearest -/
def within (top x : ℚ) : ℚ := max 0 (min top x)

/-- a node without storage, that no link and no converter touches -/
structure Isolated (s : Study) (g d : String) (n : InputNode) : Prop where
  storages : n.storages = []
  links : n.links = []
  arrivals : ∀ d' n', HasNode s g d' n' → ∀ l ∈ n'.links, l.dest ≠ d
  converters : ∀ p ∈ s.converters, ¬ (p.2.destNetwork = g ∧ p.2.destNode = d) ∧ [g, d] ∉ p.2.srcRatios.map Prod.fst

end Hadar.Spec
