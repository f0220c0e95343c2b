import Verif.Spec.Worth
import Verif.Spec.Window

/-!
# Specification of C133: asking for more
-/

namespace Hadar.Spec

open Hadar

/-- same study, where consumptions ask for at least as much; everything else is the same -/
def MoreLoads (s : Study) (k : ℕ) (s' : Study) (k' : ℕ) : Prop :=
  Alike (fun _ _ n n' => List.Forall₂ (fun a b => Series s.horizon k k' Eq a.cost b.cost ∧
        Series s.horizon k k' (fun x y => x ≤ y) a.quantity b.quantity) n.consumptions n'.consumptions ∧
      NodeCmp s.horizon k k' Eq Eq Eq { n with consumptions := [] } { n' with consumptions := [] })
    (fun _ => ConverterCmp s.horizon k k' Eq Eq) s s'

/-- no storage must be emptied: it is empty at first, or it can keep what it holds for nothing; and none has a negative efficiency -/
def StoragesAtRest (s : Study) (k : ℕ) : Prop :=
  ∀ g d n, HasNode s g d n → ∀ c ∈ n.storages, (∀ t < s.horizon, 0 ≤ val c.eff k t) ∧
    (c.initCapacity = 0 ∨ 0 ≤ c.initCapacity ∧ ∀ t < s.horizon, val c.cost k t = 0 ∧ c.initCapacity ≤ val c.capacity k t)

/-- no price is negative -/
structure Prices.Nonneg (P : Prices) : Prop where
  node : ∀ g d t, 0 ≤ P.node g d t
  stored : ∀ g d i t, 0 ≤ P.stored g d i t
  used : ∀ c x t, 0 ≤ P.used c x t

/-- what is asked by the `i`-th consumption of a node -/
def asked (s : Study) (k : ℕ) (g d : String) (i t : ℕ) : ℚ :=
  match (inNode s g d).consumptions[i]? with
  | some c => val c.quantity k t
  | none => 0

/-- what it would cost to lose all that is asked, each unit at the cost of cutting it -/
def askedCost (s : Study) (k : ℕ) : ℚ :=
  sumL (List.range s.horizon) fun t => sumL s.networks fun p => sumL p.2.nodes fun q =>
    sumI q.2.consumptions fun c _ => val c.cost k t * val c.quantity k t

/-- the same dispatch, which loses all that `s'` asks for and `s` does not -/
def Dispatch.losing (s : Study) (k : ℕ) (s' : Study) (k' : ℕ) (D : Dispatch) : Dispatch where
  lol g d i t := D.lol g d i t + (asked s' k' g d i t - asked s k g d i t)
  prod := D.prod
  cap := D.cap
  fin := D.fin
  fout := D.fout
  link := D.link
  convSrc := D.convSrc
  convDest := D.convDest

end Hadar.Spec
