import Verif.Spec.Place
import Verif.Spec.Prices

/-!
# Specification of C131: a coarser study, where nodes and elements are put together
-/

namespace Hadar.Spec

open Hadar

/-- position in its new node of the `i`-th element, of some kind, of a node -/
abbrev Positions := String → String → ℕ → ℕ

/-- sum over the elements of `s`, among those that are kept, which are put at position `j` of node `x` of the coarser study -/
def gathered {α : Type} (place : Place) (s : Study) (elements : InputNode → List α) (keep : String → String → α → Bool) (pos : Positions)
    (x : String × String) (j : ℕ) (f : String → String → α → ℕ → ℚ) : ℚ :=
  sumL s.networks fun p => sumL p.2.nodes fun q => if place (p.1, q.1) = x then
    sumI (elements q.2) fun a i => if keep p.1 q.1 a = true ∧ pos p.1 q.1 i = j then f p.1 q.1 a i else 0 else 0

/-- all elements are kept -/
def keepAll {α : Type} (_ _ : String) (_ : α) : Bool := true

/-- the link goes to a node that is put elsewhere -/
def crosses (place : Place) (g d : String) (l : Link) : Bool := decide (place (g, l.dest) ≠ place (g, d))

/-- the node of `s'` where node `d` of network `g` is put -/
def newNode (place : Place) (s' : Study) (g d : String) : InputNode := inNode s' (place (g, d)).1 (place (g, d)).2

/-- a converter whose sources and destination follow the nodes, no more costly -/
structure CoarseConverter (place : Place) (h k k' : ℕ) (c c' : Converter) : Prop where
  sources : List.Forall₂ (fun a b => b.1 = place.key a.1 ∧ ∀ t < h, val b.2 k' t = val a.2 k t) c.srcRatios c'.srcRatios
  destNetwork : c'.destNetwork = (place (c.destNetwork, c.destNode)).1
  destNode : c'.destNode = (place (c.destNetwork, c.destNode)).2
  cost : ∀ t < h, fval c'.cost k' t ≤ fval c.cost k t
  max : ∀ t < h, fval c'.max k' t = fval c.max k t

/-- where the elements of a study are put in a coarser one -/
structure Layout where
  place : Place
  consumption : Positions
  production : Positions
  storage : Positions
  link : Positions

/-- `s'` is `s` with nodes put together, and within a node consumptions, productions, storages and links put together:
* what is put together costs no more than before;
* it asks for the sum of what was asked, starts from the sum of the initial levels, and has at least the sum of the limits; storages keep
  their efficiency;
* links inside a node that nodes are put together in are left out, if carrying energy there is not paid for; others go between the new nodes;
* converters follow the nodes. -/
structure Coarser (L : Layout) (s : Study) (k : ℕ) (s' : Study) (k' : ℕ) : Prop where
  horizon : s'.horizon = s.horizon
  nodes : ∀ g d n, HasNode s g d n → ∃ n', HasNode s' (L.place (g, d)).1 (L.place (g, d)).2 n'
  consumptions : ∀ g d n, HasNode s g d n → ∀ i a, n.consumptions[i]? = some a →
    ∃ b, (newNode L.place s' g d).consumptions[L.consumption g d i]? = some b ∧ ∀ t < s.horizon, val b.cost k' t ≤ val a.cost k t
  asked : ∀ g' d' n', HasNode s' g' d' n' → ∀ j b, n'.consumptions[j]? = some b → ∀ t < s.horizon,
    val b.quantity k' t = gathered L.place s InputNode.consumptions keepAll L.consumption (g', d') j fun _ _ a _ => val a.quantity k t
  productions : ∀ g d n, HasNode s g d n → ∀ i a, n.productions[i]? = some a →
    ∃ b, (newNode L.place s' g d).productions[L.production g d i]? = some b ∧ ∀ t < s.horizon, val b.cost k' t ≤ val a.cost k t
  available : ∀ g' d' n', HasNode s' g' d' n' → ∀ j b, n'.productions[j]? = some b → ∀ t < s.horizon,
    gathered L.place s InputNode.productions keepAll L.production (g', d') j (fun _ _ a _ => val a.quantity k t) ≤ val b.quantity k' t
  storages : ∀ g d n, HasNode s g d n → ∀ i a, n.storages[i]? = some a →
    ∃ b, (newNode L.place s' g d).storages[L.storage g d i]? = some b ∧
      ∀ t < s.horizon, val b.cost k' t ≤ val a.cost k t ∧ val b.eff k' t = val a.eff k t
  start : ∀ g' d' n', HasNode s' g' d' n' → ∀ j b, n'.storages[j]? = some b →
    b.initCapacity = gathered L.place s InputNode.storages keepAll L.storage (g', d') j fun _ _ a _ => a.initCapacity
  room : ∀ g' d' n', HasNode s' g' d' n' → ∀ j b, n'.storages[j]? = some b → ∀ t < s.horizon,
    gathered L.place s InputNode.storages keepAll L.storage (g', d') j (fun _ _ a _ => val a.capacity k t) ≤ val b.capacity k' t ∧
    gathered L.place s InputNode.storages keepAll L.storage (g', d') j (fun _ _ a _ => val a.flowIn k t) ≤ val b.flowIn k' t ∧
    gathered L.place s InputNode.storages keepAll L.storage (g', d') j (fun _ _ a _ => val a.flowOut k t) ≤ val b.flowOut k' t
  inside : ∀ g d n, HasNode s g d n → ∀ a ∈ n.links, crosses L.place g d a = false → ∀ t < s.horizon, 0 ≤ val a.cost k t
  links : ∀ g d n, HasNode s g d n → ∀ i a, n.links[i]? = some a → crosses L.place g d a = true →
    (L.place (g, a.dest)).1 = (L.place (g, d)).1 ∧ ∃ b, (newNode L.place s' g d).links[L.link g d i]? = some b ∧
      b.dest = (L.place (g, a.dest)).2 ∧ ∀ t < s.horizon, val b.cost k' t ≤ val a.cost k t
  between : ∀ g' d' n', HasNode s' g' d' n' → ∀ j b, n'.links[j]? = some b → ∀ t < s.horizon,
    gathered L.place s InputNode.links (crosses L.place) L.link (g', d') j (fun _ _ a _ => val a.quantity k t) ≤ val b.quantity k' t
  converters : List.Forall₂ (fun p q => p.1 = q.1 ∧ CoarseConverter L.place s.horizon k k' p.2 q.2) s.converters s'.converters

/-- the flows of a dispatch of `s`, added up where elements are put together -/
def Dispatch.gather (L : Layout) (s : Study) (D : Dispatch) : Dispatch where
  lol g' d' j t := gathered L.place s InputNode.consumptions keepAll L.consumption (g', d') j fun g d _ i => D.lol g d i t
  prod g' d' j t := gathered L.place s InputNode.productions keepAll L.production (g', d') j fun g d _ i => D.prod g d i t
  cap g' d' j t := gathered L.place s InputNode.storages keepAll L.storage (g', d') j fun g d _ i => D.cap g d i t
  fin g' d' j t := gathered L.place s InputNode.storages keepAll L.storage (g', d') j fun g d _ i => D.fin g d i t
  fout g' d' j t := gathered L.place s InputNode.storages keepAll L.storage (g', d') j fun g d _ i => D.fout g d i t
  link g' d' j t := gathered L.place s InputNode.links (crosses L.place) L.link (g', d') j fun g d _ i => D.link g d i t
  convSrc c x t := sumL s.converters fun p => if p.1 = c then sumL p.2.srcRatios fun q =>
    if L.place (srcPair q.1) = x then D.convSrc c (srcPair q.1) t else 0 else 0
  convDest c t := D.convDest c t

end Hadar.Spec
