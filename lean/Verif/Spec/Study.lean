import Verif.Model.Fluent
import Verif.Spec.Numeric

/-!
# What a well-formed study is (independent of the builder code)
-/

namespace Hadar.Spec

open Hadar

/-- node `node` of network `network` exists and is `n` -/
def HasNode (s : Study) (network node : String) (n : InputNode) : Prop :=
  ∃ net, (network, net) ∈ s.networks ∧ (node, n) ∈ net.nodes

/-- C06: all names are unique within their scope -/
structure UniqueNames (s : Study) : Prop where
  networks : (s.networks.map Prod.fst).Nodup
  nodes : ∀ p ∈ s.networks, (p.2.nodes.map Prod.fst).Nodup
  consumptions : ∀ g d n, HasNode s g d n → (n.consumptions.map (·.name)).Nodup
  productions : ∀ g d n, HasNode s g d n → (n.productions.map (·.name)).Nodup
  storages : ∀ g d n, HasNode s g d n → (n.storages.map (·.name)).Nodup
  links : ∀ g d n, HasNode s g d n → (n.links.map (·.dest)).Nodup
  converters : (s.converters.map Prod.fst).Nodup
  sources : ∀ p ∈ s.converters, (p.2.srcRatios.map Prod.fst).Nodup

/-- C07: every link ends on a node of its own network -/
def LinksExist (s : Study) : Prop :=
  ∀ g net, (g, net) ∈ s.networks → ∀ d n, (d, n) ∈ net.nodes →
    ∀ l ∈ n.links, l.dest ∈ net.nodes.map Prod.fst

/-- C13: a converter is stored under its own name, its sources are existing nodes, and its
destination, once given, is an existing node -/
structure ConverterOk (s : Study) (key : String) (c : Converter) : Prop where
  name : c.name = key
  sources : ∀ k ∈ c.srcRatios.map Prod.fst, ∃ g d n, k = [g, d] ∧ HasNode s g d n
  dest : (c.destNetwork = "" ∧ c.destNode = "" ∧ c.cost = .int0 ∧ c.max = .int0) ∨
    ∃ n, HasNode s c.destNetwork c.destNode n

def ConvertersOk (s : Study) : Prop := ∀ p ∈ s.converters, ConverterOk s p.1 p.2

/-- C10: a series that can be read everywhere in a study of horizon `h` with `n` scenarios -/
def Usable (h n : ℕ) (v : NumVal) : Prop :=
  v.flatten.length = n * h ∧ ∀ i j : ℕ, i < n → j < h → ∃ q, v.getitem i j = .ok q

/-- `V` holds of all series of a node -/
structure NodeAll (V : NumVal → Prop) (n : InputNode) : Prop where
  consumptions : ∀ c ∈ n.consumptions, V c.quantity ∧ V c.cost
  productions : ∀ c ∈ n.productions, V c.quantity ∧ V c.cost
  storages : ∀ c ∈ n.storages, V c.capacity ∧ V c.flowIn ∧ V c.flowOut ∧ V c.cost ∧ V c.eff
  links : ∀ c ∈ n.links, V c.quantity ∧ V c.cost

/-- `V` holds of all series of a converter -/
def ConvAll (V : NumVal → Prop) (c : Converter) : Prop :=
  (∀ p ∈ c.srcRatios, V p.2) ∧ (∀ v, c.cost = .val v → V v) ∧ (∀ v, c.max = .val v → V v)

/-- `V` holds of all series of a study -/
def StudyAll (V : NumVal → Prop) (s : Study) : Prop :=
  (∀ g d n, HasNode s g d n → NodeAll V n) ∧ ∀ p ∈ s.converters, ConvAll V p.2

/-- C10: all series of the study can be read everywhere -/
def AllUsable (s : Study) : Prop := StudyAll (Usable s.horizon s.nbScn) s

/-! C09: nothing already in the study is lost, altered or moved. -/

/-- `d'` has the entries of `d`, in the same order and related by `R`, followed by new ones -/
def DictExt {K V : Type} (R : V → V → Prop) (d d' : Dict K V) : Prop :=
  ∃ front back, d' = front ++ back ∧
    List.Forall₂ (fun p q => p.1 = q.1 ∧ R p.2 q.2) d front

structure NodeExt (n n' : InputNode) : Prop where
  consumptions : n.consumptions <+: n'.consumptions
  productions : n.productions <+: n'.productions
  storages : n.storages <+: n'.storages
  links : n.links <+: n'.links

/-- converter: same name, sources kept -/
structure ConvExt (c c' : Converter) : Prop where
  name : c'.name = c.name
  sources : c.srcRatios <+: c'.srcRatios

structure StudyExt (s s' : Study) : Prop where
  horizon : s'.horizon = s.horizon
  nbScn : s'.nbScn = s.nbScn
  version : s'.version = s.version
  networks : DictExt (fun a b => DictExt NodeExt a.nodes b.nodes) s.networks s'.networks
  converters : DictExt ConvExt s.converters s'.converters

/-- the call passes only numbers, lists and arrays (no pre-built `NumericalValue`) -/
def RawCall : Call → Prop
  | .studyAddLink _ _ _ c q | .netLink _ _ _ c q | .nodeLink _ _ _ c q
  | .nodeConsumption _ _ c q | .nodeProduction _ _ c q
  | .netConverter _ _ _ _ q c | .nodeConverter _ _ _ _ q c =>
    (∀ v, c ≠ .val v) ∧ (∀ v, q ≠ .val v)
  | .nodeStorage _ a => (∀ v, a.capacity ≠ .val v) ∧ (∀ v, a.flowIn ≠ .val v) ∧
      (∀ v, a.flowOut ≠ .val v) ∧ (∀ v, a.cost ≠ .val v) ∧ (∀ v, a.eff ≠ .val v)
  | .nodeToConverter _ _ r => ∀ v, r ≠ .val v
  | _ => True

end Hadar.Spec

namespace Hadar.Spec

open Hadar

/-- C09: `s'` is `s` except that node `d` of network `g`, which was `n`, is now `n'` -/
def OnlyNodeChanged (s s' : Study) (g d : String) (n n' : InputNode) : Prop :=
  ∃ pre post npre npost,
    s.networks = pre ++ (g, ⟨npre ++ (d, n) :: npost⟩) :: post ∧
    s' = { s with networks := pre ++ (g, ⟨npre ++ (d, n') :: npost⟩) :: post }

/-- C11: `s'` is `s` except that network `g` has one more node, `d`, last and empty -/
def OnlyNodeAdded (s s' : Study) (g d : String) : Prop :=
  ∃ pre post nodes,
    s.networks = pre ++ (g, ⟨nodes⟩) :: post ∧
    s' = { s with networks := pre ++ (g, ⟨nodes ++ [(d, ⟨[], [], [], []⟩)]⟩) :: post }

/-- C09: `s'` is `s` except that converter `name`, which was `c`, is now `c'` -/
def OnlyConverterChanged (s s' : Study) (name : String) (c c' : Converter) : Prop :=
  ∃ pre post, s.converters = pre ++ (name, c) :: post ∧
    s' = { s with converters := pre ++ (name, c') :: post }

/-- the stored series `v` reads everywhere as what the user gave -/
def Stores (h n : ℕ) (r : Raw) (v : NumVal) : Prop :=
  ∀ i j : ℕ, i < n → j < h → ∃ q, v.getitem i j = .ok q ∧ Means h n r i j q

/-- C05: the value given by the user has property `P` at every scenario and time step -/
def Everywhere (h n : ℕ) (r : Raw) (P : ℚ → Prop) : Prop :=
  ∀ i j : ℕ, i < n → j < h → ∃ q, Means h n r i j q ∧ P q

end Hadar.Spec
