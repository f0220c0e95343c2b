import Verif.Spec.LP

/-!
# A link and the converter that does the same
-/

namespace Hadar.Spec

open Hadar

/-- the elements of node `d` of network `g'` with a link and with a converter: only node `a` of network `g` has one link more,
the last one -/
structure SameBut (g a : String) (l : Link) (g' d : String) (n n' : InputNode) : Prop where
  consumptions : n.consumptions = n'.consumptions
  productions : n.productions = n'.productions
  storages : n.storages = n'.storages
  links : n.links = n'.links ++ if g' = g ∧ d = a then [l] else []

/-- the converter takes from node `a` of network `g`, at ratio one, what it gives to the node the link goes to, with the
maximum and the cost of the link in scenario `k` -/
structure DoesAs (h k : ℕ) (g a : String) (l : Link) (p : Converter) : Prop where
  sources : ∃ r, p.srcRatios = [([g, a], r)] ∧ ∀ t < h, val r k t = 1
  destNetwork : p.destNetwork = g
  destNode : p.destNode = l.dest
  max : ∀ t < h, fval p.max k t = val l.quantity k t
  cost : ∀ t < h, fval p.cost k t = val l.cost k t

/-- `s` has the link `l` at node `a` of network `g` where `s'` has the converter `p` of name `c`; all else is the same -/
structure Replaced (s s' : Study) (k : ℕ) (g a : String) (l : Link) (c : String) (p : Converter) : Prop where
  horizon : s.horizon = s'.horizon
  scenarios : s.nbScn = s'.nbScn
  node : ∃ n, HasNode s g a n
  nodes : ∀ g' d n, HasNode s g' d n → ∃ n', HasNode s' g' d n' ∧ SameBut g a l g' d n n'
  nodes' : ∀ g' d n', HasNode s' g' d n' → ∃ n, HasNode s g' d n ∧ SameBut g a l g' d n n'
  converters : s'.converters = s.converters ++ [(c, p)]
  does : DoesAs s.horizon k g a l p

/-- position of the link -/
def lastLink (s' : Study) (g a : String) : ℕ := (inNode s' g a).links.length

/-- what goes through the link goes through the converter -/
def asConverter (s' : Study) (g a c : String) (D : Dispatch) : Dispatch :=
  { D with
    convSrc := fun c' q t => if c' = c then D.link g a (lastLink s' g a) t else D.convSrc c' q t
    convDest := fun c' t => if c' = c then D.link g a (lastLink s' g a) t else D.convDest c' t }

/-- what goes through the converter goes through the link -/
def asLink (s' : Study) (g a c : String) (D : Dispatch) : Dispatch :=
  { D with
    link := fun g' d i t => if g' = g ∧ d = a ∧ i = lastLink s' g a then D.convDest c t else D.link g' d i t }

end Hadar.Spec
