import Verif.Spec.LP

/-!
# Two converters in a row, and one converter that does what both do
-/

namespace Hadar.Spec

open Hadar

/-- in `s` the converter `A` gives to a bare node `m` of network `g` what it takes from `(g₁, d₁)`, and the converter `B`, the only one that
takes from `m`, gives it on; in `s'` the converter `C` has the place and the name of `B`, takes from `(g₁, d₁)` and gives to where `B` gives.
Its ratio is the product of the two ratios, its maximum what both can do, and its cost adds what `A` costs for what `B` gives. All else is
the same. -/
structure Cascaded (s s' : Study) (k : ℕ) (g m g₁ d₁ a b : String) (A B C : Converter) (r₁ r₂ r₃ : NumVal)
    (kept : List (String × Converter)) : Prop where
  horizon : s.horizon = s'.horizon
  scenarios : s.nbScn = s'.nbScn
  networks : s.networks = s'.networks
  both : s.converters = kept ++ [(a, A), (b, B)]
  one : s'.converters = kept ++ [(b, C)]
  firstFrom : A.srcRatios = [([g₁, d₁], r₁)]
  firstTo : A.destNetwork = g ∧ A.destNode = m
  secondFrom : B.srcRatios = [([g, m], r₂)]
  oneFrom : C.srcRatios = [([g₁, d₁], r₃)]
  oneTo : C.destNetwork = B.destNetwork ∧ C.destNode = B.destNode
  notBack : ¬ (B.destNetwork = g ∧ B.destNode = m)
  notSelf : ¬ (g₁ = g ∧ d₁ = m)
  bare : ∃ n, HasNode s g m n ∧ n.consumptions = [] ∧ n.productions = [] ∧ n.storages = [] ∧ n.links = []
  unreached : ∀ d n, HasNode s g d n → ∀ x ∈ n.links, x.dest ≠ m
  unused : ∀ q ∈ kept, ¬ (q.2.destNetwork = g ∧ q.2.destNode = m) ∧ ∀ r ∈ q.2.srcRatios, r.1 ≠ [g, m]
  positive : ∀ t < s.horizon, 0 < val r₁ k t ∧ 0 < val r₂ k t
  ratio : ∀ t < s.horizon, val r₃ k t = val r₁ k t * val r₂ k t
  max : ∀ t < s.horizon, fval C.max k t = min (fval B.max k t) (fval A.max k t * val r₂ k t)
  cost : ∀ t < s.horizon, fval C.cost k t = fval B.cost k t + fval A.cost k t / val r₂ k t

/-- what the first converter gives is what the second one takes, and what the first one takes is what the only one takes -/
def GoesDown (h : ℕ) (g m g₁ d₁ a b : String) (D : Dispatch) : Prop :=
  ∀ t < h, D.convDest a t = D.convSrc b (g, m) t ∧ D.convSrc b (g₁, d₁) t = D.convSrc a (g₁, d₁) t

/-- the one converter takes what the first of both takes -/
def asOne (g₁ d₁ a b : String) (D : Dispatch) : Dispatch :=
  { D with convSrc := fun c p t => if c = b ∧ p = (g₁, d₁) then D.convSrc a (g₁, d₁) t else D.convSrc c p t }

/-- the first of both takes what the one converter takes, and the second what the first makes of it -/
def asTwo (k : ℕ) (g m g₁ d₁ a b : String) (r₁ : NumVal) (D : Dispatch) : Dispatch :=
  { D with
    convSrc := fun c p t => if c = a then D.convSrc b (g₁, d₁) t else
      if c = b ∧ p = (g, m) then D.convSrc b (g₁, d₁) t * val r₁ k t else D.convSrc c p t
    convDest := fun c t => if c = a then D.convSrc b (g₁, d₁) t * val r₁ k t else D.convDest c t }

end Hadar.Spec
