import Verif.Spec.LP

/-!
# Studies that differ by the order of their declarations only
-/

namespace Hadar.Spec

open Hadar

/-- nodes with the same elements, in any order -/
structure SameElements (n n' : InputNode) : Prop where
  consumptions : n.consumptions.Perm n'.consumptions
  productions : n.productions.Perm n'.productions
  storages : n.storages.Perm n'.storages
  links : n.links.Perm n'.links

/-- converters with the same data and sources, in any order -/
structure SameSources (c c' : Converter) : Prop where
  sources : c.srcRatios.Perm c'.srcRatios
  destNetwork : c.destNetwork = c'.destNetwork
  destNode : c.destNode = c'.destNode
  cost : c.cost = c'.cost
  max : c.max = c'.max

/-- C77: studies with the same nodes, elements, converters and sources, in any order. Networks without node are of no account. -/
structure Reordered (s s' : Study) : Prop where
  horizon : s.horizon = s'.horizon
  nbScn : s.nbScn = s'.nbScn
  nodes : ∀ g d n, HasNode s g d n → ∃ n', HasNode s' g d n' ∧ SameElements n n'
  nodes' : ∀ g d n', HasNode s' g d n' → ∃ n, HasNode s g d n ∧ SameElements n n'
  converters : ∀ p ∈ s.converters, ∃ c', (p.1, c') ∈ s'.converters ∧ SameSources p.2 c'
  converters' : ∀ p ∈ s'.converters, ∃ c, (p.1, c) ∈ s.converters ∧ SameSources c p.2

/-- nodes have the same storage in first position, if they have storages -/
def SameFirstStorage (s s' : Study) : Prop :=
  ∀ g d n n', HasNode s g d n → HasNode s' g d n' → n.storages.head? = n'.storages.head?

/-- the position in `l` of the `i`-th element of `l'` -/
def posIn {α : Type} [DecidableEq α] (l l' : List α) (i : ℕ) : ℕ :=
  match l'[i]? with
  | some a => l.idxOf a
  | none => l.length

/-- the dispatch `D` of `s`, with the same flows for the same elements of `s'` -/
def moved (s s' : Study) (D : Dispatch) : Dispatch where
  lol g d i t := D.lol g d (posIn (inNode s g d).consumptions (inNode s' g d).consumptions i) t
  prod g d i t := D.prod g d (posIn (inNode s g d).productions (inNode s' g d).productions i) t
  cap g d i t := D.cap g d (posIn (inNode s g d).storages (inNode s' g d).storages i) t
  fin g d i t := D.fin g d (posIn (inNode s g d).storages (inNode s' g d).storages i) t
  fout g d i t := D.fout g d (posIn (inNode s g d).storages (inNode s' g d).storages i) t
  link g d i t := D.link g d (posIn (inNode s g d).links (inNode s' g d).links i) t
  convSrc := D.convSrc
  convDest := D.convDest

end Hadar.Spec
