import Verif.Spec.Sensitivity

/-!
# A study where elements with the same cost are put together
-/

namespace Hadar.Spec

open Hadar

/-- The elements of `l'` are groups of elements of `l`: the `i`-th element of `l` is in group `f i`, which has the same cost, and a
group has the quantities of its members added up. -/
structure Groups {α : Type} (h k k' : ℕ) (cost quantity : α → NumVal) (f : ℕ → ℕ) (l l' : List α) : Prop where
  into : ∀ i a, l[i]? = some a → ∃ b, l'[f i]? = some b ∧ ∀ t < h, val (cost b) k' t = val (cost a) k t
  total : ∀ j b, l'[j]? = some b → ∀ t < h,
    val (quantity b) k' t = sumI l fun a i => if f i = j then val (quantity a) k t else 0

/-- storages and links of two nodes are the same -/
structure SameRest (h k k' : ℕ) (n n' : InputNode) : Prop where
  storages : List.Forall₂ (fun a b => Series h k k' Eq a.capacity b.capacity ∧ Series h k k' Eq a.flowIn b.flowIn ∧
    Series h k k' Eq a.flowOut b.flowOut ∧ Series h k k' Eq a.cost b.cost ∧ a.initCapacity = b.initCapacity ∧
    Series h k k' Eq a.eff b.eff) n.storages n'.storages
  links : List.Forall₂ (fun a b => a.dest = b.dest ∧ Series h k k' Eq a.cost b.cost ∧
    Series h k k' Eq a.quantity b.quantity) n.links n'.links

/-- consumptions grouped by `C`, productions grouped by `P`, the rest as it was -/
structure NodeGroups (h k k' : ℕ) (C P : ℕ → ℕ) (n n' : InputNode) : Prop where
  consumptions : Groups h k k' Consumption.cost Consumption.quantity C n.consumptions n'.consumptions
  productions : Groups h k k' Production.cost Production.quantity P n.productions n'.productions
  rest : SameRest h k k' n n'

/-- C90: `s'` is `s` where consumptions of a node that cost the same are put together, so are productions; `C g d i` is the place
of the `i`-th consumption of node `d` of network `g`, `P g d i` that of its `i`-th production -/
def PutTogether (C P : String → String → ℕ → ℕ) (s : Study) (k : ℕ) (s' : Study) (k' : ℕ) : Prop :=
  Alike (fun g d => NodeGroups s.horizon k k' (C g d) (P g d)) (fun _ => ConverterCmp s.horizon k k' Eq Eq) s s'

/-- quantities of consumptions and productions are not negative -/
structure QuantitiesNonneg (s : Study) (k : ℕ) : Prop where
  consumptions : ∀ g d n, HasNode s g d n → ∀ c ∈ n.consumptions, ∀ t < s.horizon, 0 ≤ val c.quantity k t
  productions : ∀ g d n, HasNode s g d n → ∀ c ∈ n.productions, ∀ t < s.horizon, 0 ≤ val c.quantity k t

/-- flows of elements that are put together, added up -/
def Dispatch.together (C P : String → String → ℕ → ℕ) (s : Study) (D : Dispatch) : Dispatch :=
  { D with
    lol := fun g d j t => sumI (inNode s g d).consumptions fun _ i => if C g d i = j then D.lol g d i t else 0
    prod := fun g d j t => sumI (inNode s g d).productions fun _ i => if P g d i = j then D.prod g d i t else 0 }

end Hadar.Spec
