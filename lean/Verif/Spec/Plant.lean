import Verif.Spec.LP

/-!
# A production behind a link, and the same production at the end of the link
-/

namespace Hadar.Spec

open Hadar

/-- the elements of node `d` of network `g'` with the plant at its own node `m` and without: `m` has the production `p` and the link `l`
only, and is bare without; the node at the end of the link has one production more without, `p'`, the last one -/
structure PlantNode (g m : String) (p : Production) (l : Link) (p' : Production) (g' d : String) (n n' : InputNode) : Prop where
  consumptions : n.consumptions = n'.consumptions
  storages : n.storages = n'.storages
  links : n.links = n'.links ++ if g' = g ∧ d = m then [l] else []
  productions : ∃ kept, n.productions = kept ++ (if g' = g ∧ d = m then [p] else []) ∧
    n'.productions = kept ++ if g' = g ∧ d = l.dest then [p'] else []
  bare : g' = g ∧ d = m → n'.consumptions = [] ∧ n'.productions = [] ∧ n'.storages = [] ∧ n'.links = []

/-- in `s` the production `p` has a node `m` of its own, from where the link `l` goes to the network; in `s'` the production `p'` is at the
end of the link, with the smaller of the two quantities and the sum of the two costs in scenario `k`. Nothing else reaches `m`. All else
is the same. -/
structure PlantMoved (s s' : Study) (k : ℕ) (g m : String) (p : Production) (l : Link) (p' : Production) : Prop where
  horizon : s.horizon = s'.horizon
  scenarios : s.nbScn = s'.nbScn
  nodeM : ∃ n, HasNode s g m n
  nodeE : ∃ n, HasNode s g l.dest n
  apart : l.dest ≠ m
  nodes : ∀ g' d n, HasNode s g' d n → ∃ n', HasNode s' g' d n' ∧ PlantNode g m p l p' g' d n n'
  nodes' : ∀ g' d n', HasNode s' g' d n' → ∃ n, HasNode s g' d n ∧ PlantNode g m p l p' g' d n n'
  converters : s.converters = s'.converters
  unreached : ∀ d n', HasNode s' g d n' → ∀ x ∈ n'.links, x.dest ≠ m
  unused : ∀ q ∈ s'.converters, ¬ (q.2.destNetwork = g ∧ q.2.destNode = m) ∧ ∀ r ∈ q.2.srcRatios, r.1 ≠ [g, m]
  quantity : ∀ t < s.horizon, val p'.quantity k t = min (val p.quantity k t) (val l.quantity k t)
  cost : ∀ t < s.horizon, val p'.cost k t = val p.cost k t + val l.cost k t

/-- position of the production at the end of the link, which is the last one of its node -/
def plantAt (s' : Study) (g e : String) : ℕ := (inNode s' g e).productions.length - 1

/-- what is produced behind the link goes through the link, and is what is produced at its end -/
def SameOutput (s' : Study) (g m e : String) (D : Dispatch) : Prop :=
  ∀ t < s'.horizon, D.prod g m 0 t = D.link g m 0 t ∧ D.prod g e (plantAt s' g e) t = D.link g m 0 t

/-- what goes through the link is produced at its end -/
def atEnd (s' : Study) (g m e : String) (D : Dispatch) : Dispatch :=
  { D with
    prod := fun g' d i t => if g' = g ∧ d = e ∧ i = plantAt s' g e then D.link g m 0 t else D.prod g' d i t }

/-- what is produced at the end of the link is produced behind it and goes through it -/
def behind (s' : Study) (g m e : String) (D : Dispatch) : Dispatch :=
  { D with
    prod := fun g' d i t => if g' = g ∧ d = m ∧ i = 0 then D.prod g e (plantAt s' g e) t else D.prod g' d i t
    link := fun g' d i t => if g' = g ∧ d = m ∧ i = 0 then D.prod g e (plantAt s' g e) t else D.link g' d i t }

end Hadar.Spec
