import Verif.Spec.Adequacy
import Verif.Spec.Sensitivity

/-!
# Regions and their deficit (independent of the code)
-/

namespace Hadar.Spec

open Hadar

/-- a set of nodes, given by network and name -/
abbrev Region : Type := String → String → Bool

/-- what a region cannot find at time `t`, whatever is done: what its consumptions ask for, less all that its productions and storages
can give, all that links from outside can bring and all that converters can give to its nodes -/
def deficit (s : Study) (k : ℕ) (S : Region) (t : ℕ) : ℚ :=
  (total s fun g d n => if S g d then
    (sumI n.consumptions fun c _ => val c.quantity k t) - (sumI n.productions fun c _ => val c.quantity k t) -
      sumI n.storages fun c _ => val c.flowOut k t
    else - sumI n.links fun l _ => if S g l.dest then val l.quantity k t else 0) -
  sumL s.converters fun p => if S p.2.destNetwork p.2.destNode then fval p.2.max k t else 0

/-- a study without storage or converter -/
def OnlyLinks (s : Study) : Prop := s.converters = [] ∧ ∀ g d n, HasNode s g d n → n.storages = []

/-- number of nodes of a study -/
def nbNodes (s : Study) : ℕ := (s.networks.map fun p => p.2.nodes.length).sum

/-- losing load costs more than producing anywhere and bringing energy through all the nodes: productions cost `u` at most, links
between 0 and `c` -/
structure LossIsWorst (s : Study) (k : ℕ) (u c v : ℚ) : Prop where
  loss : LossCosts s k v
  productions : ∀ g d n, HasNode s g d n → ∀ p ∈ n.productions, ∀ t < s.horizon, val p.cost k t ≤ u
  links : ∀ g d n, HasNode s g d n → ∀ l ∈ n.links, ∀ t < s.horizon, 0 ≤ val l.cost k t ∧ val l.cost k t ≤ c
  nonneg : 0 ≤ c
  worst : u + ((nbNodes s : ℚ) - 1) * c < v

/-- `s'` has the same elements as `s` with no less means and no more needs, whatever they cost -/
def BetterSupplied (s : Study) (k : ℕ) (s' : Study) (k' : ℕ) : Prop :=
  Compared (fun _ _ => True) (fun x y => x ≤ y) (fun x y => y ≤ x) s k s' k'

/-- two studies that only differ in costs -/
def SameMeans (s : Study) (k : ℕ) (s' : Study) (k' : ℕ) : Prop := Compared (fun _ _ => True) Eq Eq s k s' k'

end Hadar.Spec
