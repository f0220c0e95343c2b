import Verif.Model.Dto
import Verif.Spec.Study

/-!
# When two studies or results hold the same data, and what Python objects are (independent of `==`)
-/

namespace Hadar.Spec

open Hadar

/-- the same keys, in any order, with related values -/
structure SameMap {K V : Type} (R : V → V → Prop) (d e : Dict K V) : Prop where
  keys : ∀ k, k ∈ d.map Prod.fst ↔ k ∈ e.map Prod.fst
  values : ∀ k v w, (k, v) ∈ d → (k, w) ∈ e → R v w

/-- converters with the same data; sources in any order -/
structure SameConverterData (c c' : Converter) : Prop where
  name : c.name = c'.name
  sources : SameMap Eq c.srcRatios c'.srcRatios
  destNetwork : c.destNetwork = c'.destNetwork
  destNode : c.destNode = c'.destNode
  cost : c.cost = c'.cost
  max : c.max = c'.max

/-- studies with the same data; networks, nodes and converters in any order, elements of a node in the same
order -/
structure SameStudyData (s s' : Study) : Prop where
  version : s.version = s'.version
  networks : SameMap (fun a b => SameMap Eq a.nodes b.nodes) s.networks s'.networks
  converters : SameMap SameConverterData s.converters s'.converters
  horizon : s.horizon = s'.horizon
  nbScn : s.nbScn = s'.nbScn

/-- converters of results with the same data -/
structure SameOutputConverter (c c' : OutputConverter) : Prop where
  name : c.name = c'.name
  sources : SameMap Eq c.flowSrc c'.flowSrc
  dest : c.flowDest = c'.flowDest

/-- results with the same data -/
structure SameResultData (r r' : Result) : Prop where
  networks : SameMap (fun a b => SameMap Eq a.nodes b.nodes) r.networks r'.networks
  converters : SameMap SameOutputConverter r.converters r'.converters
  benchmark : r.benchmark = r'.benchmark

mutual
/-- The object is in the memory `mem`, which says what each identity stands for: two objects with the same
identity are one object. Keys of a dict are unique, and so are names of attributes. -/
def Live (mem : ℕ → PyObj) : PyObj → Prop
  | .num _ => True
  | .str _ => True
  | .arr i a => mem i = .arr 0 a
  | .list i l => mem i = .list 0 (PyObj.eraseItems l) ∧ LiveItems mem l
  | .dict i d => mem i = .dict 0 (PyObj.eraseEntries d) ∧ (d.map Prod.fst).Nodup ∧ LiveEntries mem d
  | .inst i c d => mem i = .inst 0 c (PyObj.eraseEntries d) ∧ (d.map Prod.fst).Nodup ∧ LiveEntries mem d ∧
      ∀ p ∈ d, ∃ s, p.1 = .str s
def LiveItems (mem : ℕ → PyObj) : List PyObj → Prop
  | [] => True
  | x :: l => Live mem x ∧ LiveItems mem l
def LiveEntries (mem : ℕ → PyObj) : List (PyKey × PyObj) → Prop
  | [] => True
  | (_, x) :: d => Live mem x ∧ LiveEntries mem d
end

mutual
/-- `P` holds of the identities of the object and of all objects inside it -/
def Ids (P : ℕ → Prop) : PyObj → Prop
  | .num _ => True
  | .str _ => True
  | .arr i _ => P i
  | .list i l => P i ∧ IdsItems P l
  | .dict i d => P i ∧ IdsEntries P d
  | .inst i _ d => P i ∧ IdsEntries P d
def IdsItems (P : ℕ → Prop) : List PyObj → Prop
  | [] => True
  | x :: l => Ids P x ∧ IdsItems P l
def IdsEntries (P : ℕ → Prop) : List (PyKey × PyObj) → Prop
  | [] => True
  | (_, x) :: d => Ids P x ∧ IdsEntries P d
end

/-- the two objects have no part in common -/
def NothingShared (x y : PyObj) : Prop := ∃ P : ℕ → Prop, Ids P x ∧ Ids (fun i => ¬ P i) y

/-- a Python object of memory `mem` that is the study `s` -/
def StudyObject (mem : ℕ → PyObj) (x : PyObj) (s : Study) : Prop := Live mem x ∧ x.erase = s.obj

/-- a Python object of memory `mem` that is the result `r` -/
def ResultObject (mem : ℕ → PyObj) (x : PyObj) (r : Result) : Prop := Live mem x ∧ x.erase = r.obj

/-- the array has exactly one element -/
def OneElement (a : NdArray) : Prop := a.data.length = 1

/-- `P` holds of the array of the value, if it has one -/
def ArrayOf (P : NdArray → Prop) (v : NumVal) : Prop :=
  ∀ a, v.kind = .matrix a ∨ v.kind = .row a ∨ v.kind = .column a → P a

/-- every value of the study is a number, or an array of one number -/
def Numbers (s : Study) : Prop := StudyAll (ArrayOf OneElement) s

/-- names of a result are unique -/
structure ResultNames (r : Result) : Prop where
  networks : (r.networks.map Prod.fst).Nodup
  nodes : ∀ p ∈ r.networks, (p.2.nodes.map Prod.fst).Nodup
  converters : (r.converters.map Prod.fst).Nodup
  sources : ∀ p ∈ r.converters, (p.2.flowSrc.map Prod.fst).Nodup

/-- `P` holds of all arrays of a result -/
structure ResultArrays (P : NdArray → Prop) (r : Result) : Prop where
  nodes : ∀ p ∈ r.networks, ∀ q ∈ p.2.nodes,
    (∀ c ∈ q.2.consumptions, P c.quantity) ∧ (∀ c ∈ q.2.productions, P c.quantity) ∧
    (∀ c ∈ q.2.storages, P c.capacity ∧ P c.flowIn ∧ P c.flowOut) ∧ ∀ c ∈ q.2.links, P c.quantity
  converters : ∀ p ∈ r.converters, (∀ q ∈ p.2.flowSrc, P q.2) ∧ P p.2.flowDest

end Hadar.Spec
