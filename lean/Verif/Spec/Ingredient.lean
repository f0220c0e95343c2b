import Verif.Spec.LP

/-!
# A converter with one source of its own, and the same converter without this source
-/

namespace Hadar.Spec

open Hadar

/-- the elements of node `d` of network `g'` with the ingredient at its own node `(g, m)` and without: `(g, m)` has the production `p` only,
and is bare without -/
structure IngredientNode (g m : String) (p : Production) (g' d : String) (n n' : InputNode) : Prop where
  consumptions : n.consumptions = n'.consumptions
  storages : n.storages = n'.storages
  links : n.links = n'.links
  productions : n.productions = n'.productions ++ if g' = g ∧ d = m then [p] else []
  bare : g' = g ∧ d = m → n'.consumptions = [] ∧ n'.productions = [] ∧ n'.storages = [] ∧ n'.links = []

/-- in `s` the converter `A` takes from its sources `srcs`, and from a node `(g, m)` where only `p` is produced; in `s'` it takes from `srcs`
only, its maximum is also what can be made of `p`, and its cost contains the cost of `p`. Nothing else reaches `(g, m)`. All else is the
same. -/
structure Supplied (s s' : Study) (k : ℕ) (g m a : String) (A A' : Converter) (srcs : List (List String × NumVal)) (r : NumVal)
    (p : Production) (kept : List (String × Converter)) : Prop where
  horizon : s.horizon = s'.horizon
  scenarios : s.nbScn = s'.nbScn
  nodeM : ∃ n, HasNode s g m n
  nodes : ∀ g' d n, HasNode s g' d n → ∃ n', HasNode s' g' d n' ∧ IngredientNode g m p g' d n n'
  nodes' : ∀ g' d n', HasNode s' g' d n' → ∃ n, HasNode s g' d n ∧ IngredientNode g m p g' d n n'
  with' : s.converters = kept ++ [(a, A)]
  without : s'.converters = kept ++ [(a, A')]
  takes : A.srcRatios = srcs ++ [([g, m], r)]
  takes' : A'.srcRatios = srcs
  gives : A'.destNetwork = A.destNetwork ∧ A'.destNode = A.destNode
  notBack : ¬ (A.destNetwork = g ∧ A.destNode = m)
  others : ∀ x ∈ srcs, x.1 ≠ [g, m]
  unreached : ∀ d n', HasNode s' g d n' → ∀ x ∈ n'.links, x.dest ≠ m
  unused : ∀ q ∈ kept, ¬ (q.2.destNetwork = g ∧ q.2.destNode = m) ∧ ∀ x ∈ q.2.srcRatios, x.1 ≠ [g, m]
  positive : ∀ t < s.horizon, 0 < val r k t ∧ ∀ x ∈ srcs, 0 < val x.2 k t
  max : ∀ t < s.horizon, fval A'.max k t = min (fval A.max k t) (val p.quantity k t * val r k t)
  cost : ∀ t < s.horizon, fval A'.cost k t = fval A.cost k t + val p.cost k t / val r k t

/-- what is produced of the ingredient goes to the converter, in the right ratio -/
def SameMix (h k : ℕ) (g m a : String) (r : NumVal) (D : Dispatch) : Prop :=
  ∀ t < h, D.prod g m 0 t = D.convSrc a (g, m) t ∧ D.convSrc a (g, m) t * val r k t = D.convDest a t

/-- the ingredient is produced as the converter needs it -/
def withIngredient (k : ℕ) (g m a : String) (r : NumVal) (D : Dispatch) : Dispatch :=
  { D with
    prod := fun g' d i t => if g' = g ∧ d = m ∧ i = 0 then D.convDest a t / val r k t else D.prod g' d i t
    convSrc := fun c x t => if c = a ∧ x = (g, m) then D.convDest a t / val r k t else D.convSrc c x t }

end Hadar.Spec
