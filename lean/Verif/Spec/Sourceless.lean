import Verif.Spec.LP

/-!
# A converter without sources, and a production in its place
-/

namespace Hadar.Spec

open Hadar

/-- the elements of node `d` of network `g'` with the converter and without: without, the node `(g, e)` it gives to has one production more,
`p`, the last one -/
structure SourcelessNode (g e : String) (p : Production) (g' d : String) (n n' : InputNode) : Prop where
  consumptions : n.consumptions = n'.consumptions
  storages : n.storages = n'.storages
  links : n.links = n'.links
  productions : n'.productions = n.productions ++ if g' = g ∧ d = e then [p] else []

/-- in `s` the converter `A` gives to `(g, e)` and takes from nowhere; in `s'` there is no such converter, and the production `p` of its
maximum and of its cost at `(g, e)`. All else is the same. -/
structure Sourceless (s s' : Study) (k : ℕ) (g e a : String) (A : Converter) (p : Production) : Prop where
  horizon : s.horizon = s'.horizon
  scenarios : s.nbScn = s'.nbScn
  nodeE : ∃ n, HasNode s g e n
  nodes : ∀ g' d n, HasNode s g' d n → ∃ n', HasNode s' g' d n' ∧ SourcelessNode g e p g' d n n'
  nodes' : ∀ g' d n', HasNode s' g' d n' → ∃ n, HasNode s g' d n ∧ SourcelessNode g e p g' d n n'
  converters : s.converters = s'.converters ++ [(a, A)]
  takes : A.srcRatios = []
  gives : A.destNetwork = g ∧ A.destNode = e
  quantity : ∀ t < s.horizon, val p.quantity k t = fval A.max k t
  cost : ∀ t < s.horizon, val p.cost k t = fval A.cost k t

/-- position of the production, which is the last one of its node -/
def freeAt (s' : Study) (g e : String) : ℕ := (inNode s' g e).productions.length - 1

/-- the production and the converter give the same -/
def SameFree (s' : Study) (g e a : String) (D : Dispatch) : Prop :=
  ∀ t < s'.horizon, D.prod g e (freeAt s' g e) t = D.convDest a t

/-- what the converter gives is produced -/
def asProduced (s' : Study) (g e a : String) (D : Dispatch) : Dispatch :=
  { D with
    prod := fun g' d i t => if g' = g ∧ d = e ∧ i = freeAt s' g e then D.convDest a t else D.prod g' d i t }

/-- what is produced is given by the converter -/
def asGiven (s' : Study) (g e a : String) (D : Dispatch) : Dispatch :=
  { D with
    convDest := fun c t => if c = a then D.prod g e (freeAt s' g e) t else D.convDest c t }

end Hadar.Spec
