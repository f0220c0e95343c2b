import Verif.Spec.Sensitivity

/-!
# A study that is a mixture of two others
-/

namespace Hadar.Spec

open Hadar

/-- the same elements, costs, ratios and efficiencies; quantities may be any -/
def SameShape (s : Study) (k : ℕ) (s' : Study) (k' : ℕ) : Prop :=
  Compared Eq (fun _ _ => True) (fun _ _ => True) s k s' k'

/-- `z` is `x a + y b` -/
def Mix (x y a b z : ℚ) : Prop := z = x * a + y * b

/-- `z` is `x a + y b`, or more -/
def MixLe (x y a b z : ℚ) : Prop := x * a + y * b ≤ z

/-- C85: the loads and initial levels of `s` for scenario `k` are `x` times those of `s₁` for `k₁` and `y` times those of `s₂` for
`k₂`; limits are that, or more; all the rest is the same in the three studies -/
structure Blended (x y : ℚ) (s₁ : Study) (k₁ : ℕ) (s₂ : Study) (k₂ : ℕ) (s : Study) (k : ℕ) : Prop where
  first : SameShape s₁ k₁ s k
  second : SameShape s₂ k₂ s k
  consumptions : ∀ g d n₁ n₂ n, HasNode s₁ g d n₁ → HasNode s₂ g d n₂ → HasNode s g d n → ∀ (i : ℕ) c₁ c₂ c,
    n₁.consumptions[i]? = some c₁ → n₂.consumptions[i]? = some c₂ → n.consumptions[i]? = some c → ∀ t < s.horizon,
    Mix x y (val c₁.quantity k₁ t) (val c₂.quantity k₂ t) (val c.quantity k t)
  productions : ∀ g d n₁ n₂ n, HasNode s₁ g d n₁ → HasNode s₂ g d n₂ → HasNode s g d n → ∀ (i : ℕ) c₁ c₂ c,
    n₁.productions[i]? = some c₁ → n₂.productions[i]? = some c₂ → n.productions[i]? = some c → ∀ t < s.horizon,
    MixLe x y (val c₁.quantity k₁ t) (val c₂.quantity k₂ t) (val c.quantity k t)
  storages : ∀ g d n₁ n₂ n, HasNode s₁ g d n₁ → HasNode s₂ g d n₂ → HasNode s g d n → ∀ (i : ℕ) c₁ c₂ c,
    n₁.storages[i]? = some c₁ → n₂.storages[i]? = some c₂ → n.storages[i]? = some c →
    Mix x y c₁.initCapacity c₂.initCapacity c.initCapacity ∧ ∀ t < s.horizon,
    MixLe x y (val c₁.capacity k₁ t) (val c₂.capacity k₂ t) (val c.capacity k t) ∧
    MixLe x y (val c₁.flowIn k₁ t) (val c₂.flowIn k₂ t) (val c.flowIn k t) ∧
    MixLe x y (val c₁.flowOut k₁ t) (val c₂.flowOut k₂ t) (val c.flowOut k t)
  links : ∀ g d n₁ n₂ n, HasNode s₁ g d n₁ → HasNode s₂ g d n₂ → HasNode s g d n → ∀ (i : ℕ) c₁ c₂ c,
    n₁.links[i]? = some c₁ → n₂.links[i]? = some c₂ → n.links[i]? = some c → ∀ t < s.horizon,
    MixLe x y (val c₁.quantity k₁ t) (val c₂.quantity k₂ t) (val c.quantity k t)
  converters : ∀ p₁ ∈ s₁.converters, ∀ p₂ ∈ s₂.converters, ∀ p ∈ s.converters, p₁.1 = p.1 → p₂.1 = p.1 → ∀ t < s.horizon,
    MixLe x y (fval p₁.2.max k₁ t) (fval p₂.2.max k₂ t) (fval p.2.max k t)

/-- the same elements and quantities; costs may be any -/
def SameQuantities (s : Study) (k : ℕ) (s' : Study) (k' : ℕ) : Prop :=
  Compared (fun _ _ => True) Eq Eq s k s' k'

/-- C85: the costs of `s` for scenario `k` are `x` times those of `s₁` for `k₁` and `y` times those of `s₂` for `k₂`; all the rest is the
same in the three studies -/
structure CostsBlended (x y : ℚ) (s₁ : Study) (k₁ : ℕ) (s₂ : Study) (k₂ : ℕ) (s : Study) (k : ℕ) : Prop where
  first : SameQuantities s₁ k₁ s k
  second : SameQuantities s₂ k₂ s k
  consumptions : ∀ g d n₁ n₂ n, HasNode s₁ g d n₁ → HasNode s₂ g d n₂ → HasNode s g d n → ∀ (i : ℕ) c₁ c₂ c,
    n₁.consumptions[i]? = some c₁ → n₂.consumptions[i]? = some c₂ → n.consumptions[i]? = some c → ∀ t < s.horizon,
    Mix x y (val c₁.cost k₁ t) (val c₂.cost k₂ t) (val c.cost k t)
  productions : ∀ g d n₁ n₂ n, HasNode s₁ g d n₁ → HasNode s₂ g d n₂ → HasNode s g d n → ∀ (i : ℕ) c₁ c₂ c,
    n₁.productions[i]? = some c₁ → n₂.productions[i]? = some c₂ → n.productions[i]? = some c → ∀ t < s.horizon,
    Mix x y (val c₁.cost k₁ t) (val c₂.cost k₂ t) (val c.cost k t)
  storages : ∀ g d n₁ n₂ n, HasNode s₁ g d n₁ → HasNode s₂ g d n₂ → HasNode s g d n → ∀ (i : ℕ) c₁ c₂ c,
    n₁.storages[i]? = some c₁ → n₂.storages[i]? = some c₂ → n.storages[i]? = some c → ∀ t < s.horizon,
    Mix x y (val c₁.cost k₁ t) (val c₂.cost k₂ t) (val c.cost k t)
  links : ∀ g d n₁ n₂ n, HasNode s₁ g d n₁ → HasNode s₂ g d n₂ → HasNode s g d n → ∀ (i : ℕ) c₁ c₂ c,
    n₁.links[i]? = some c₁ → n₂.links[i]? = some c₂ → n.links[i]? = some c → ∀ t < s.horizon,
    Mix x y (val c₁.cost k₁ t) (val c₂.cost k₂ t) (val c.cost k t)
  converters : ∀ p₁ ∈ s₁.converters, ∀ p₂ ∈ s₂.converters, ∀ p ∈ s.converters, p₁.1 = p.1 → p₂.1 = p.1 → ∀ t < s.horizon,
    Mix x y (fval p₁.2.cost k₁ t) (fval p₂.2.cost k₂ t) (fval p.2.cost k t)

/-- `x` times the flows of `D₁` and `y` times those of `D₂` -/
def Dispatch.blend (x y : ℚ) (D₁ D₂ : Dispatch) : Dispatch where
  lol g d i t := x * D₁.lol g d i t + y * D₂.lol g d i t
  prod g d i t := x * D₁.prod g d i t + y * D₂.prod g d i t
  cap g d i t := x * D₁.cap g d i t + y * D₂.cap g d i t
  fin g d i t := x * D₁.fin g d i t + y * D₂.fin g d i t
  fout g d i t := x * D₁.fout g d i t + y * D₂.fout g d i t
  link g d i t := x * D₁.link g d i t + y * D₂.link g d i t
  convSrc c p t := x * D₁.convSrc c p t + y * D₂.convSrc c p t
  convDest c t := x * D₁.convDest c t + y * D₂.convDest c t

/-! ### The mean of scenarios -/

/-- the mean of `f 0 … f (N-1)` with weights `w` -/
def weighted (N : ℕ) (w : ℕ → ℚ) (f : ℕ → ℚ) : ℚ := sumL (List.range N) fun k => w k * f k

/-- weights of a mean -/
structure Weights (N : ℕ) (w : ℕ → ℚ) : Prop where
  nonneg : ∀ k < N, 0 ≤ w k
  total : weighted N w (fun _ => 1) = 1

/-- a series that has for scenario `k'` the mean of another -/
def MeanSeries (h N : ℕ) (w : ℕ → ℚ) (k' : ℕ) (v v' : NumVal) : Prop :=
  ∀ t < h, val v' k' t = weighted N w fun k => val v k t

/-- a series that has for scenario `k'` at least the mean of another -/
def MeanLe (h N : ℕ) (w : ℕ → ℚ) (k' : ℕ) (v v' : NumVal) : Prop :=
  ∀ t < h, (weighted N w fun k => val v k t) ≤ val v' k' t

/-- a series that does not depend on the scenario, and is the same as another -/
def FixSeries (h N : ℕ) (k' : ℕ) (v v' : NumVal) : Prop := ∀ t < h, ∀ k < N, val v k t = val v' k' t

/-- loads of `n'` for scenario `k'` are the means of those of `n`, limits are the means or more; all the rest is the same in all scenarios -/
structure MeanNode (h N : ℕ) (w : ℕ → ℚ) (k' : ℕ) (n n' : InputNode) : Prop where
  consumptions : List.Forall₂ (fun a b : Consumption => FixSeries h N k' a.cost b.cost ∧ MeanSeries h N w k' a.quantity b.quantity)
    n.consumptions n'.consumptions
  productions : List.Forall₂ (fun a b : Production => FixSeries h N k' a.cost b.cost ∧ MeanLe h N w k' a.quantity b.quantity)
    n.productions n'.productions
  storages : List.Forall₂ (fun a b : Storage => FixSeries h N k' a.cost b.cost ∧ MeanLe h N w k' a.capacity b.capacity ∧
    MeanLe h N w k' a.flowIn b.flowIn ∧ MeanLe h N w k' a.flowOut b.flowOut ∧ a.initCapacity = b.initCapacity ∧
    FixSeries h N k' a.eff b.eff) n.storages n'.storages
  links : List.Forall₂ (fun a b : Link => a.dest = b.dest ∧ FixSeries h N k' a.cost b.cost ∧
    MeanLe h N w k' a.quantity b.quantity) n.links n'.links

structure MeanConverter (h N : ℕ) (w : ℕ → ℚ) (k' : ℕ) (c c' : Converter) : Prop where
  sources : List.Forall₂ (fun a b => a.1 = b.1 ∧ FixSeries h N k' a.2 b.2) c.srcRatios c'.srcRatios
  destNetwork : c.destNetwork = c'.destNetwork
  destNode : c.destNode = c'.destNode
  cost : ∀ t < h, ∀ k < N, fval c.cost k t = fval c'.cost k' t
  max : ∀ t < h, (weighted N w fun k => fval c.max k t) ≤ fval c'.max k' t

/-- C86: scenario `k'` of `s'` is the mean of the scenarios of `s` (limits may be more); costs, ratios, efficiencies and initial levels do not
depend on the scenario -/
def MeanScenario (w : ℕ → ℚ) (s s' : Study) (k' : ℕ) : Prop :=
  Alike (fun _ _ => MeanNode s.horizon s.nbScn w k') (fun _ => MeanConverter s.horizon s.nbScn w k') s s'

/-- the mean of the flows of several dispatches -/
def Dispatch.mean (N : ℕ) (w : ℕ → ℚ) (D : ℕ → Dispatch) : Dispatch where
  lol g d i t := weighted N w fun k => (D k).lol g d i t
  prod g d i t := weighted N w fun k => (D k).prod g d i t
  cap g d i t := weighted N w fun k => (D k).cap g d i t
  fin g d i t := weighted N w fun k => (D k).fin g d i t
  fout g d i t := weighted N w fun k => (D k).fout g d i t
  link g d i t := weighted N w fun k => (D k).link g d i t
  convSrc c p t := weighted N w fun k => (D k).convSrc c p t
  convDest c t := weighted N w fun k => (D k).convDest c t

end Hadar.Spec
