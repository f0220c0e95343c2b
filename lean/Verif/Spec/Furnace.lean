import Verif.Spec.LP

/-!
# A production behind a converter, and the same production after conversion
-/

namespace Hadar.Spec

open Hadar

/-- the elements of node `d` of network `g'` with the fuel at its own node `(g, m)` and without: `(g, m)` has the production `p` only, and
is bare without; the node `(g₂, e)` the converter gives to has one production more without, `p'`, the last one -/
structure FuelNode (g m g₂ e : String) (p p' : Production) (g' d : String) (n n' : InputNode) : Prop where
  consumptions : n.consumptions = n'.consumptions
  storages : n.storages = n'.storages
  links : n.links = n'.links
  productions : ∃ kept, n.productions = kept ++ (if g' = g ∧ d = m then [p] else []) ∧
    n'.productions = kept ++ if g' = g₂ ∧ d = e then [p'] else []
  bare : g' = g ∧ d = m → n'.consumptions = [] ∧ n'.productions = [] ∧ n'.storages = [] ∧ n'.links = []

/-- in `s` the production `p` of fuel has a node `(g, m)` of its own, from where the converter `A` takes it; in `s'` there is no such
converter and the production `p'` is at the node the converter gives to, with what the fuel and the converter can give and the cost of the
converter and of the fuel it needs. Nothing else reaches `(g, m)`. All else is the same. -/
structure Burnt (s s' : Study) (k : ℕ) (g m g₂ e a : String) (A : Converter) (r : NumVal) (p p' : Production) : Prop where
  horizon : s.horizon = s'.horizon
  scenarios : s.nbScn = s'.nbScn
  nodeM : ∃ n, HasNode s g m n
  nodeE : ∃ n, HasNode s g₂ e n
  apart : ¬ (g₂ = g ∧ e = m)
  nodes : ∀ g' d n, HasNode s g' d n → ∃ n', HasNode s' g' d n' ∧ FuelNode g m g₂ e p p' g' d n n'
  nodes' : ∀ g' d n', HasNode s' g' d n' → ∃ n, HasNode s g' d n ∧ FuelNode g m g₂ e p p' g' d n n'
  converters : s.converters = s'.converters ++ [(a, A)]
  takes : A.srcRatios = [([g, m], r)]
  gives : A.destNetwork = g₂ ∧ A.destNode = e
  unreached : ∀ d n', HasNode s' g d n' → ∀ x ∈ n'.links, x.dest ≠ m
  unused : ∀ q ∈ s'.converters, ¬ (q.2.destNetwork = g ∧ q.2.destNode = m) ∧ ∀ x ∈ q.2.srcRatios, x.1 ≠ [g, m]
  positive : ∀ t < s.horizon, 0 < val r k t
  quantity : ∀ t < s.horizon, val p'.quantity k t = min (val p.quantity k t * val r k t) (fval A.max k t)
  cost : ∀ t < s.horizon, val p'.cost k t = fval A.cost k t + val p.cost k t / val r k t

/-- position of the production after conversion, which is the last one of its node -/
def powerAt (s' : Study) (g₂ e : String) : ℕ := (inNode s' g₂ e).productions.length - 1

/-- the fuel goes to the converter, which makes of it what is produced after conversion -/
def SamePower (s' : Study) (k : ℕ) (g m g₂ e a : String) (r : NumVal) (D : Dispatch) : Prop :=
  ∀ t < s'.horizon, D.prod g m 0 t = D.convSrc a (g, m) t ∧ D.convSrc a (g, m) t * val r k t = D.convDest a t ∧
    D.prod g₂ e (powerAt s' g₂ e) t = D.convDest a t

/-- what the converter gives is produced -/
def producedHere (s' : Study) (g₂ e a : String) (D : Dispatch) : Dispatch :=
  { D with
    prod := fun g' d i t => if g' = g₂ ∧ d = e ∧ i = powerAt s' g₂ e then D.convDest a t else D.prod g' d i t }

/-- what is produced is made of fuel by the converter -/
def madeOfFuel (s' : Study) (k : ℕ) (g m g₂ e a : String) (r : NumVal) (D : Dispatch) : Dispatch :=
  { D with
    prod := fun g' d i t => if g' = g ∧ d = m ∧ i = 0 then D.prod g₂ e (powerAt s' g₂ e) t / val r k t else D.prod g' d i t
    convSrc := fun c x t => if c = a then D.prod g₂ e (powerAt s' g₂ e) t / val r k t else D.convSrc c x t
    convDest := fun c t => if c = a then D.prod g₂ e (powerAt s' g₂ e) t else D.convDest c t }

end Hadar.Spec
