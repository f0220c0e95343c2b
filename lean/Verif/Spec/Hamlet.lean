import Verif.Spec.LP

/-!
# A load behind a link, and the same load at the start of the link
-/

namespace Hadar.Spec

open Hadar

/-- the elements of node `d` of network `g'` with the load at its own node `m` and without: `m` has the load `c` only, and is bare without;
node `e` has the link `l` with, and one load more without, `c'`, the last one -/
structure HamletNode (g m e : String) (c : Consumption) (l : Link) (c' : Consumption) (g' d : String) (n n' : InputNode) : Prop where
  productions : n.productions = n'.productions
  storages : n.storages = n'.storages
  links : n.links = n'.links ++ if g' = g ∧ d = e then [l] else []
  consumptions : ∃ kept, n.consumptions = kept ++ (if g' = g ∧ d = m then [c] else []) ∧
    n'.consumptions = kept ++ if g' = g ∧ d = e then [c'] else []
  bare : g' = g ∧ d = m → n'.consumptions = [] ∧ n'.productions = [] ∧ n'.storages = [] ∧ n'.links = []

/-- in `s` the load `c` has a node `m` of its own, to which the link `l` goes from node `e`; in `s'` the load `c'` is at node `e`, asks for
what the link can bring, and not serving it costs that much less than the link costs. Nothing else reaches `m`. All else is the same. -/
structure HamletMoved (s s' : Study) (k : ℕ) (g m e : String) (c : Consumption) (l : Link) (c' : Consumption) : Prop where
  horizon : s.horizon = s'.horizon
  scenarios : s.nbScn = s'.nbScn
  nodeM : ∃ n, HasNode s g m n
  nodeE : ∃ n, HasNode s g e n
  apart : e ≠ m
  goes : l.dest = m
  nodes : ∀ g' d n, HasNode s g' d n → ∃ n', HasNode s' g' d n' ∧ HamletNode g m e c l c' g' d n n'
  nodes' : ∀ g' d n', HasNode s' g' d n' → ∃ n, HasNode s g' d n ∧ HamletNode g m e c l c' g' d n n'
  converters : s.converters = s'.converters
  unreached : ∀ d n', HasNode s' g d n' → ∀ x ∈ n'.links, x.dest ≠ m
  unused : ∀ q ∈ s'.converters, ¬ (q.2.destNetwork = g ∧ q.2.destNode = m) ∧ ∀ r ∈ q.2.srcRatios, r.1 ≠ [g, m]
  quantity : ∀ t < s.horizon, val c'.quantity k t = min (val c.quantity k t) (val l.quantity k t)
  cost : ∀ t < s.horizon, val c'.cost k t = val c.cost k t - val l.cost k t

/-- what has to be paid whatever is decided: what the link cannot bring is not served, and what it can bring pays for the link -/
def hamletToll (h k : ℕ) (c : Consumption) (l : Link) : ℚ :=
  sumL (List.range h) fun t =>
    val c.cost k t * (val c.quantity k t - min (val c.quantity k t) (val l.quantity k t)) +
      val l.cost k t * min (val c.quantity k t) (val l.quantity k t)

/-- position of the moved load, which is the last one of its node -/
def hamletAt (s' : Study) (g e : String) : ℕ := (inNode s' g e).consumptions.length - 1

/-- position of the link, which is the last one of its node -/
def roadAt (s' : Study) (g e : String) : ℕ := (inNode s' g e).links.length

/-- what the load gets behind the link goes through the link, and is what it gets at the start of the link -/
def SameServed (s' : Study) (k : ℕ) (g m e : String) (c c' : Consumption) (D : Dispatch) : Prop :=
  ∀ t < s'.horizon, val c.quantity k t - D.lol g m 0 t = D.link g e (roadAt s' g e) t ∧
    val c'.quantity k t - D.lol g e (hamletAt s' g e) t = D.link g e (roadAt s' g e) t

/-- what goes through the link is served at its start -/
def nearer (s' : Study) (k : ℕ) (g e : String) (c' : Consumption) (D : Dispatch) : Dispatch :=
  { D with
    lol := fun g' d i t => if g' = g ∧ d = e ∧ i = hamletAt s' g e then val c'.quantity k t - D.link g e (roadAt s' g e) t
      else D.lol g' d i t }

/-- what is served at the start of the link goes through it and is served behind it -/
def farther (s' : Study) (k : ℕ) (g m e : String) (c c' : Consumption) (D : Dispatch) : Dispatch :=
  { D with
    lol := fun g' d i t => if g' = g ∧ d = m ∧ i = 0 then
      val c.quantity k t - (val c'.quantity k t - D.lol g e (hamletAt s' g e) t) else D.lol g' d i t
    link := fun g' d i t => if g' = g ∧ d = e ∧ i = roadAt s' g e then val c'.quantity k t - D.lol g e (hamletAt s' g e) t
      else D.link g' d i t }

end Hadar.Spec
