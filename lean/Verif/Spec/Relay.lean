import Verif.Spec.LP

/-!
# A node that only passes on, and the link that goes straight
-/

namespace Hadar.Spec

open Hadar

/-- the elements of node `d` of network `g'` with the relay and without: the last link of node `a` is `l₁` with the relay and
`l` without, the relay `m` has only the link `l₂` and is bare without -/
structure RelayNode (g a m : String) (l₁ l₂ l : Link) (g' d : String) (n n' : InputNode) : Prop where
  consumptions : n.consumptions = n'.consumptions
  productions : n.productions = n'.productions
  storages : n.storages = n'.storages
  links : ∃ kept, n'.links = kept ++ (if g' = g ∧ d = a then [l] else []) ∧
    n.links = kept ++ if g' = g ∧ d = a then [l₁] else if g' = g ∧ d = m then [l₂] else []
  bare : g' = g ∧ d = m → n'.consumptions = [] ∧ n'.productions = [] ∧ n'.storages = [] ∧ n'.links = []

/-- in `s` the link `l₁` goes from node `a` to the relay `m` and the link `l₂` from there on; in `s'` the link `l` goes straight
from `a` to where `l₂` goes, with the smaller of the two quantities and the sum of the two costs in scenario `k`. Nothing else
reaches the relay. All else is the same. -/
structure Relayed (s s' : Study) (k : ℕ) (g a m : String) (l₁ l₂ l : Link) : Prop where
  horizon : s.horizon = s'.horizon
  scenarios : s.nbScn = s'.nbScn
  nodeA : ∃ n, HasNode s g a n
  nodeM : ∃ n, HasNode s g m n
  apart : a ≠ m
  nodes : ∀ g' d n, HasNode s g' d n → ∃ n', HasNode s' g' d n' ∧ RelayNode g a m l₁ l₂ l g' d n n'
  nodes' : ∀ g' d n', HasNode s' g' d n' → ∃ n, HasNode s g' d n ∧ RelayNode g a m l₁ l₂ l g' d n n'
  converters : s.converters = s'.converters
  unreached : ∀ d n', HasNode s' g d n' → ∀ x ∈ n'.links, x.dest ≠ m
  unused : ∀ q ∈ s'.converters, ¬ (q.2.destNetwork = g ∧ q.2.destNode = m) ∧ ∀ r ∈ q.2.srcRatios, r.1 ≠ [g, m]
  toRelay : l₁.dest = m
  fromRelay : l₂.dest = l.dest
  quantity : ∀ t < s.horizon, val l.quantity k t = min (val l₁.quantity k t) (val l₂.quantity k t)
  cost : ∀ t < s.horizon, val l.cost k t = val l₁.cost k t + val l₂.cost k t

/-- position of the straight link, which is the last one of its node -/
def straightAt (s' : Study) (g a : String) : ℕ := (inNode s' g a).links.length - 1

/-- the relay passes on what it gets -/
def PassesOn (s' : Study) (g a m : String) (D : Dispatch) : Prop :=
  ∀ t < s'.horizon, D.link g m 0 t = D.link g a (straightAt s' g a) t

/-- what goes through the straight link goes through the relay -/
def viaRelay (s' : Study) (g a m : String) (D : Dispatch) : Dispatch :=
  { D with
    link := fun g' d i t => if g' = g ∧ d = m ∧ i = 0 then D.link g a (straightAt s' g a) t else D.link g' d i t }

end Hadar.Spec
