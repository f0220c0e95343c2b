import Verif.Spec.LP

/-!
# Specification of C134: which studies can be declared
-/

namespace Hadar.Spec

open Hadar

/-- the numbers a series was given as -/
def given (v : NumVal) : List ℚ :=
  match v.kind with
  | .scalar q => [q]
  | .matrix a | .row a | .column a => a.data

/-- a series of a study of horizon `h` with `n` scenarios: a number, one number per time step, one per scenario, or one per scenario and
time step; when there is one time step only the third form is used instead of the fourth -/
def Fits (h n : ℕ) (v : NumVal) : Prop :=
  v.horizon = h ∧ v.nbScn = n ∧
    match v.kind with
    | .scalar _ => True
    | .row a => a.shape = [h]
    | .column a => a.shape = [n, 1]
    | .matrix a => a.shape = [n, h] ∧ h ≠ 1

/-- some of the numbers given is not negative -/
def SomeNonneg (v : NumVal) : Prop := ∃ q ∈ given v, 0 ≤ q

/-- the elements of a node pass the checks: quantities, flows, capacities are not all negative, first levels are not negative,
efficiencies are not all negative and not all above one -/
structure NodeChecked (n : InputNode) : Prop where
  consumptions : ∀ c ∈ n.consumptions, SomeNonneg c.quantity
  productions : ∀ c ∈ n.productions, SomeNonneg c.quantity
  storages : ∀ c ∈ n.storages, SomeNonneg c.capacity ∧ SomeNonneg c.flowIn ∧ SomeNonneg c.flowOut ∧ 0 ≤ c.initCapacity ∧
    SomeNonneg c.eff ∧ ∃ q ∈ given c.eff, q ≤ 1
  links : ∀ c ∈ n.links, SomeNonneg c.quantity

/-- a study that makes sense -/
structure WellFormed (s : Study) : Prop where
  version : s.version = "0.5.0"
  names : UniqueNames s
  links : LinksExist s
  converters : ConvertersOk s
  series : StudyAll (Fits s.horizon s.nbScn) s
  checks : ∀ g d n, HasNode s g d n → NodeChecked n
  fields : ∀ p ∈ s.converters, p.2.cost = .int0 → p.2.max = .int0

/-- every converter has a destination with its cost and maximum, or at least one source -/
def ConvertersDeclared (s : Study) : Prop := ∀ p ∈ s.converters,
  (p.2.destNetwork = "" ∧ p.2.destNode = "" ∧ p.2.cost = .int0 ∧ p.2.max = .int0 ∧ p.2.srcRatios ≠ []) ∨
    ∃ v w, p.2.cost = .val v ∧ p.2.max = .val w

/-- all calls are accepted -/
def AllAccepted : World → List Call → Prop
  | _, [] => True
  | w, c :: cs => (∃ hd, (World.step c w).1 = .ok hd) ∧ AllAccepted (w.after c) cs

/-- a node with some of the elements of another one, in any order -/
structure SomeOf (n' n : InputNode) : Prop where
  consumptions : n'.consumptions.Subperm n.consumptions
  productions : n'.productions.Subperm n.productions
  storages : n'.storages.Subperm n.storages
  links : n'.links.Subperm n.links

/-- a study with the same nodes and some of the elements and converters of another one, in any order -/
structure SomePart (s' s : Study) : Prop where
  version : s'.version = s.version
  horizon : s'.horizon = s.horizon
  nbScn : s'.nbScn = s.nbScn
  networks : List.Forall₂ (fun p q => p.1 = q.1 ∧ List.Forall₂ (fun a b => a.1 = b.1 ∧ SomeOf a.2 b.2) p.2.nodes q.2.nodes)
    s'.networks s.networks
  converters : s'.converters.Subperm s.converters

end Hadar.Spec
