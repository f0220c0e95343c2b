import Verif.Spec.LP

/-!
# A load behind a converter, and the same load before conversion
-/

namespace Hadar.Spec

open Hadar

/-- the elements of node `d` of network `g'` with the load at its own node `(g, m)` and without: `(g, m)` has the load `c` only, and is bare
without; the node `(g₂, e)` the converter takes from has one load more without, `c'`, the last one -/
structure HeatNode (g m g₂ e : String) (c c' : Consumption) (g' d : String) (n n' : InputNode) : Prop where
  productions : n.productions = n'.productions
  storages : n.storages = n'.storages
  links : n.links = n'.links
  consumptions : ∃ kept, n.consumptions = kept ++ (if g' = g ∧ d = m then [c] else []) ∧
    n'.consumptions = kept ++ if g' = g₂ ∧ d = e then [c'] else []
  bare : g' = g ∧ d = m → n'.consumptions = [] ∧ n'.productions = [] ∧ n'.storages = [] ∧ n'.links = []

/-- in `s` the load `c` has a node `(g, m)` of its own, to which the converter `A` gives what it makes of what it takes from `(g₂, e)`; in
`s'` there is no such converter and the load `c'` is at `(g₂, e)`, asks for what the converter would need, and not serving it costs what
the converted energy is worth, less what the converter costs. Nothing else reaches `(g, m)`. All else is the same. -/
structure Heated (s s' : Study) (k : ℕ) (g m g₂ e a : String) (A : Converter) (r : NumVal) (c c' : Consumption) : Prop where
  horizon : s.horizon = s'.horizon
  scenarios : s.nbScn = s'.nbScn
  nodeM : ∃ n, HasNode s g m n
  nodeE : ∃ n, HasNode s g₂ e n
  apart : ¬ (g₂ = g ∧ e = m)
  nodes : ∀ g' d n, HasNode s g' d n → ∃ n', HasNode s' g' d n' ∧ HeatNode g m g₂ e c c' g' d n n'
  nodes' : ∀ g' d n', HasNode s' g' d n' → ∃ n, HasNode s g' d n ∧ HeatNode g m g₂ e c c' g' d n n'
  converters : s.converters = s'.converters ++ [(a, A)]
  takes : A.srcRatios = [([g₂, e], r)]
  gives : A.destNetwork = g ∧ A.destNode = m
  unreached : ∀ d n', HasNode s' g d n' → ∀ x ∈ n'.links, x.dest ≠ m
  unused : ∀ q ∈ s'.converters, ¬ (q.2.destNetwork = g ∧ q.2.destNode = m) ∧ ∀ x ∈ q.2.srcRatios, x.1 ≠ [g, m]
  positive : ∀ t < s.horizon, 0 < val r k t
  quantity : ∀ t < s.horizon, val c'.quantity k t = min (val c.quantity k t) (fval A.max k t) / val r k t
  cost : ∀ t < s.horizon, val c'.cost k t = (val c.cost k t - fval A.cost k t) * val r k t

/-- what has to be paid whatever is decided: what the converter cannot give is not served, and what it can give pays for the converter -/
def heatToll (h k : ℕ) (c : Consumption) (A : Converter) : ℚ :=
  sumL (List.range h) fun t =>
    val c.cost k t * (val c.quantity k t - min (val c.quantity k t) (fval A.max k t)) +
      fval A.cost k t * min (val c.quantity k t) (fval A.max k t)

/-- position of the load before conversion, which is the last one of its node -/
def heaterAt (s' : Study) (g₂ e : String) : ℕ := (inNode s' g₂ e).consumptions.length - 1

/-- the load gets what the converter gives, and the load before conversion what the converter takes -/
def SameHeat (s' : Study) (k : ℕ) (g m g₂ e a : String) (r : NumVal) (c c' : Consumption) (D : Dispatch) : Prop :=
  ∀ t < s'.horizon, val c.quantity k t - D.lol g m 0 t = D.convDest a t ∧ D.convSrc a (g₂, e) t * val r k t = D.convDest a t ∧
    val c'.quantity k t - D.lol g₂ e (heaterAt s' g₂ e) t = D.convSrc a (g₂, e) t

/-- what the converter takes is served -/
def servedBefore (s' : Study) (k : ℕ) (g₂ e a : String) (c' : Consumption) (D : Dispatch) : Dispatch :=
  { D with
    lol := fun g' d i t => if g' = g₂ ∧ d = e ∧ i = heaterAt s' g₂ e then val c'.quantity k t - D.convSrc a (g₂, e) t
      else D.lol g' d i t }

/-- what is served is converted and served after conversion -/
def servedAfter (s' : Study) (k : ℕ) (g m g₂ e a : String) (r : NumVal) (c c' : Consumption) (D : Dispatch) : Dispatch :=
  { D with
    lol := fun g' d i t => if g' = g ∧ d = m ∧ i = 0 then
      val c.quantity k t - (val c'.quantity k t - D.lol g₂ e (heaterAt s' g₂ e) t) * val r k t else D.lol g' d i t
    convSrc := fun x y t => if x = a then val c'.quantity k t - D.lol g₂ e (heaterAt s' g₂ e) t else D.convSrc x y t
    convDest := fun x t => if x = a then (val c'.quantity k t - D.lol g₂ e (heaterAt s' g₂ e) t) * val r k t else D.convDest x t }

end Hadar.Spec
