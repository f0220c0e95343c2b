import Verif.Spec.Blend
import Verif.Proofs.Sensitivity
import Verif.Proofs.LPReady

/-!
# Mixing dispatches of two studies
-/

namespace Hadar

open Spec

theorem sumL_three {α β γ : Type} {R₁ : α → γ → Prop} {R₂ : β → γ → Prop} {l₁ : List α} {l₂ : List β} {l : List γ}
    (h₁ : List.Forall₂ R₁ l₁ l) (h₂ : List.Forall₂ R₂ l₂ l) {f₁ : α → ℚ} {f₂ : β → ℚ} {f : γ → ℚ} {x y : ℚ}
    (hf : ∀ a ∈ l₁, ∀ b ∈ l₂, ∀ c ∈ l, R₁ a c → R₂ b c → f c = x * f₁ a + y * f₂ b) :
    sumL l f = x * sumL l₁ f₁ + y * sumL l₂ f₂ := by
  have hcons : ∀ {δ : Type} (a : δ) (l : List δ) (h : δ → ℚ), sumL (a :: l) h = h a + sumL l h := by
    intros; simp [sumL]
  induction h₁ generalizing l₂ with
  | nil => cases h₂; simp [sumL]
  | cons hac _ ih =>
    cases h₂ with
    | cons hbc h₂ =>
      rw [hcons, hcons, hcons, hf _ (by simp) _ (by simp) _ (by simp) hac hbc,
        ih h₂ fun a ha b hb c hc => hf a (by simp [ha]) b (by simp [hb]) c (by simp [hc])]
      ring

theorem sumI_three {α β γ : Type} {R₁ : α → γ → Prop} {R₂ : β → γ → Prop} {l₁ : List α} {l₂ : List β} {l : List γ}
    (h₁ : List.Forall₂ R₁ l₁ l) (h₂ : List.Forall₂ R₂ l₂ l) {f₁ : α → ℕ → ℚ} {f₂ : β → ℕ → ℚ} {f : γ → ℕ → ℚ} {x y : ℚ}
    (hf : ∀ i a b c, l₁[i]? = some a → l₂[i]? = some b → l[i]? = some c → R₁ a c → R₂ b c →
      f c i = x * f₁ a i + y * f₂ b i) :
    sumI l f = x * sumI l₁ f₁ + y * sumI l₂ f₂ := by
  rw [sumI_eq, sumI_eq, sumI_eq]
  apply sumL_three (forall₂_zipIdx h₁ 0) (forall₂_zipIdx h₂ 0)
  rintro ⟨a, i⟩ ha ⟨b, j⟩ hb ⟨c, l⟩ hc ⟨e1, hac⟩ ⟨e2, hbc⟩
  dsimp only at e1 e2 hac hbc
  subst e1 e2
  exact hf _ a b c (mem_zipIdx_iff.mp ha) (mem_zipIdx_iff.mp hb) (mem_zipIdx_iff.mp hc) hac hbc

section

variable {s₁ s₂ s : Study} {k₁ k₂ k : ℕ} {x y : ℚ} {D₁ D₂ D : Dispatch} {c₁ l₁ d₁ c₂ l₂ d₂ : ℚ → ℚ → Prop}

theorem imports_blend (h₁ : Compared c₁ l₁ d₁ s₁ k₁ s k) (h₂ : Compared c₂ l₂ d₂ s₂ k₂ s k) (g d : String) (t : ℕ) :
    imports s (D₁.blend x y D₂) g d t = x * imports s₁ D₁ g d t + y * imports s₂ D₂ g d t := by
  unfold imports
  rw [sumL_filter, sumL_filter, sumL_filter]
  apply sumL_three (Alike.networks h₁) (Alike.networks h₂)
  rintro ⟨g1, net1⟩ _ ⟨g2, net2⟩ _ ⟨g3, net3⟩ _ ⟨e1, hnet1⟩ ⟨e2, hnet2⟩
  dsimp only at e1 e2 hnet1 hnet2 ⊢
  subst e1 e2
  by_cases hg : g2 = g
  · simp only [hg, decide_true, if_true]
    apply sumL_three hnet1 hnet2
    rintro ⟨d1, n1⟩ _ ⟨d2, n2⟩ _ ⟨d3, n3⟩ _ ⟨e1, hN1⟩ ⟨e2, hN2⟩
    dsimp only at e1 e2 hN1 hN2 ⊢
    subst e1 e2
    apply sumI_three hN1.links hN2.links
    rintro i a b c - - - ⟨e1, -⟩ ⟨e2, -⟩
    rw [e1, e2]
    split_ifs
    · rfl
    · ring
  · simp [hg]

theorem from_blend (h₁ : Compared c₁ l₁ d₁ s₁ k₁ s k) (h₂ : Compared c₂ l₂ d₂ s₂ k₂ s k) (g d : String) (t : ℕ) :
    fromConverters s (D₁.blend x y D₂) g d t = x * fromConverters s₁ D₁ g d t + y * fromConverters s₂ D₂ g d t := by
  unfold fromConverters
  apply sumL_three (Alike.converters h₁) (Alike.converters h₂)
  rintro p1 _ p2 _ p _ ⟨e1, h1⟩ ⟨e2, h2⟩
  rw [h1.destNetwork, h1.destNode, h2.destNetwork, h2.destNode, e1, e2]
  split_ifs
  · rfl
  · ring

theorem to_blend (h₁ : Compared c₁ l₁ d₁ s₁ k₁ s k) (h₂ : Compared c₂ l₂ d₂ s₂ k₂ s k) (g d : String) (t : ℕ) :
    toConverters s (D₁.blend x y D₂) g d t = x * toConverters s₁ D₁ g d t + y * toConverters s₂ D₂ g d t := by
  unfold toConverters
  apply sumL_three (Alike.converters h₁) (Alike.converters h₂)
  rintro p1 _ p2 _ p _ ⟨e1, h1⟩ ⟨e2, h2⟩
  rw [e1, e2]
  apply sumL_three h1.sources h2.sources
  rintro q1 _ q2 _ q _ ⟨e3, -⟩ ⟨e4, -⟩
  rw [e3, e4]
  split_ifs
  · rfl
  · ring

theorem mixLe_bound {a₁ b₁ a₂ b₂ z : ℚ} (hx : 0 ≤ x) (hy : 0 ≤ y) (h₁ : 0 ≤ a₁ ∧ a₁ ≤ b₁) (h₂ : 0 ≤ a₂ ∧ a₂ ≤ b₂)
    (h : MixLe x y b₁ b₂ z) : 0 ≤ x * a₁ + y * a₂ ∧ x * a₁ + y * a₂ ≤ z :=
  ⟨add_nonneg (mul_nonneg hx h₁.1) (mul_nonneg hy h₂.1),
    le_trans (add_le_add (mul_le_mul_of_nonneg_left h₁.2 hx) (mul_le_mul_of_nonneg_left h₂.2 hy)) h⟩

/-- mixtures of feasible dispatches are feasible for the mixture of the studies -/
theorem Spec.Blended.codeFeasible (hx : 0 ≤ x) (hy : 0 ≤ y) (hm : Blended x y s₁ k₁ s₂ k₂ s k) (hr : RatiosNonneg s k)
    (hf₁ : CodeFeasible s₁ k₁ D₁) (hf₂ : CodeFeasible s₂ k₂ D₂) : CodeFeasible s k (D₁.blend x y D₂) := by
  have hh₁ : s₁.horizon = s.horizon := Alike.horizon hm.first
  have hh₂ : s₂.horizon = s.horizon := Alike.horizon hm.second
  refine ⟨⟨?_, ?_, ?_, ?_, ?_, ?_⟩, ?_, ?_, ?_⟩
  · intro g d n hn i c hc t ht
    obtain ⟨n₁, hn₁, hN₁⟩ := Alike.node hm.first hn
    obtain ⟨n₂, hn₂, hN₂⟩ := Alike.node hm.second hn
    obtain ⟨c₁, hc₁, -⟩ := forall₂_get_right hN₁.consumptions hc
    obtain ⟨c₂, hc₂, -⟩ := forall₂_get_right hN₂.consumptions hc
    exact mixLe_bound hx hy (hf₁.bounds.consumptions g d n₁ hn₁ i c₁ hc₁ t (hh₁ ▸ ht))
      (hf₂.bounds.consumptions g d n₂ hn₂ i c₂ hc₂ t (hh₂ ▸ ht))
      (hm.consumptions g d n₁ n₂ n hn₁ hn₂ hn i c₁ c₂ c hc₁ hc₂ hc t ht).ge
  · intro g d n hn i c hc t ht
    obtain ⟨n₁, hn₁, hN₁⟩ := Alike.node hm.first hn
    obtain ⟨n₂, hn₂, hN₂⟩ := Alike.node hm.second hn
    obtain ⟨c₁, hc₁, -⟩ := forall₂_get_right hN₁.productions hc
    obtain ⟨c₂, hc₂, -⟩ := forall₂_get_right hN₂.productions hc
    exact mixLe_bound hx hy (hf₁.bounds.productions g d n₁ hn₁ i c₁ hc₁ t (hh₁ ▸ ht))
      (hf₂.bounds.productions g d n₂ hn₂ i c₂ hc₂ t (hh₂ ▸ ht))
      (hm.productions g d n₁ n₂ n hn₁ hn₂ hn i c₁ c₂ c hc₁ hc₂ hc t ht)
  · intro g d n hn i c hc t ht
    obtain ⟨n₁, hn₁, hN₁⟩ := Alike.node hm.first hn
    obtain ⟨n₂, hn₂, hN₂⟩ := Alike.node hm.second hn
    obtain ⟨c₁, hc₁, -⟩ := forall₂_get_right hN₁.storages hc
    obtain ⟨c₂, hc₂, -⟩ := forall₂_get_right hN₂.storages hc
    obtain ⟨a1, a2, a3⟩ := hf₁.bounds.storages g d n₁ hn₁ i c₁ hc₁ t (hh₁ ▸ ht)
    obtain ⟨b1, b2, b3⟩ := hf₂.bounds.storages g d n₂ hn₂ i c₂ hc₂ t (hh₂ ▸ ht)
    obtain ⟨m1, m2, m3⟩ := (hm.storages g d n₁ n₂ n hn₁ hn₂ hn i c₁ c₂ c hc₁ hc₂ hc).2 t ht
    exact ⟨mixLe_bound hx hy a1 b1 m1, mixLe_bound hx hy a2 b2 m2, mixLe_bound hx hy a3 b3 m3⟩
  · intro g d n hn i c hc t ht
    obtain ⟨n₁, hn₁, hN₁⟩ := Alike.node hm.first hn
    obtain ⟨n₂, hn₂, hN₂⟩ := Alike.node hm.second hn
    obtain ⟨c₁, hc₁, -⟩ := forall₂_get_right hN₁.links hc
    obtain ⟨c₂, hc₂, -⟩ := forall₂_get_right hN₂.links hc
    exact mixLe_bound hx hy (hf₁.bounds.links g d n₁ hn₁ i c₁ hc₁ t (hh₁ ▸ ht))
      (hf₂.bounds.links g d n₂ hn₂ i c₂ hc₂ t (hh₂ ▸ ht))
      (hm.links g d n₁ n₂ n hn₁ hn₂ hn i c₁ c₂ c hc₁ hc₂ hc t ht)
  · intro p hp g d r hq t ht
    obtain ⟨p₁, hp₁, e₁, hC₁⟩ := Alike.conv hm.first hp
    obtain ⟨p₂, hp₂, e₂, hC₂⟩ := Alike.conv hm.second hp
    obtain ⟨⟨key₁, r₁⟩, hq₁, ek₁, hs₁⟩ := forall₂_mem_right hC₁.sources hq
    obtain ⟨⟨key₂, r₂⟩, hq₂, ek₂, hs₂⟩ := forall₂_mem_right hC₂.sources hq
    dsimp only at ek₁ ek₂ hs₁ hs₂
    subst ek₁ ek₂
    have b1 := hf₁.bounds.convSrc p₁ hp₁ g d r₁ hq₁ t (hh₁ ▸ ht)
    have b2 := hf₂.bounds.convSrc p₂ hp₂ g d r₂ hq₂ t (hh₂ ▸ ht)
    rw [hs₁ t (hh₁ ▸ ht), e₁] at b1
    rw [hs₂ t (hh₂ ▸ ht), e₂] at b2
    have hpos := hr p hp _ hq t ht
    have hmx := hm.converters p₁ hp₁ p₂ hp₂ p hp e₁ e₂ t ht
    refine ⟨add_nonneg (mul_nonneg hx b1.1) (mul_nonneg hy b2.1), fun hz => ?_⟩
    have h1 := mul_le_mul_of_nonneg_left (b1.2 hz) hx
    have h2 := mul_le_mul_of_nonneg_left (b2.2 hz) hy
    have h3 := div_le_div_of_nonneg_right hmx hpos
    have h4 : (x * fval p₁.2.max k₁ t + y * fval p₂.2.max k₂ t) / val r k t =
        x * (fval p₁.2.max k₁ t / val r k t) + y * (fval p₂.2.max k₂ t / val r k t) := by ring
    dsimp only [Dispatch.blend] at *
    linarith
  · intro p hp t ht
    obtain ⟨p₁, hp₁, e₁, hC₁⟩ := Alike.conv hm.first hp
    obtain ⟨p₂, hp₂, e₂, hC₂⟩ := Alike.conv hm.second hp
    have b1 := hf₁.bounds.convDest p₁ hp₁ t (hh₁ ▸ ht)
    have b2 := hf₂.bounds.convDest p₂ hp₂ t (hh₂ ▸ ht)
    have hmx := hm.converters p₁ hp₁ p₂ hp₂ p hp e₁ e₂ t ht
    rw [e₁] at b1
    rw [e₂] at b2
    exact mixLe_bound hx hy b1 b2 hmx
  · intro g d n hn t ht
    obtain ⟨n₁, hn₁, hN₁⟩ := Alike.node hm.first hn
    obtain ⟨n₂, hn₂, hN₂⟩ := Alike.node hm.second hn
    have e₁ := hf₁.balance g d n₁ hn₁ t (hh₁ ▸ ht)
    have e₂ := hf₂.balance g d n₂ hn₂ t (hh₂ ▸ ht)
    have hin : incoming s (D₁.blend x y D₂) g d n t = x * incoming s₁ D₁ g d n₁ t + y * incoming s₂ D₂ g d n₂ t := by
      unfold incoming
      rw [imports_blend hm.first hm.second, from_blend hm.first hm.second,
        sumI_three hN₁.productions hN₂.productions (f := fun _ i => (Dispatch.blend x y D₁ D₂).prod g d i t) (f₁ := fun _ i => D₁.prod g d i t) (f₂ := fun _ i => D₂.prod g d i t)
          (x := x) (y := y) (fun _ _ _ _ _ _ _ _ _ => rfl),
        sumI_three hN₁.storages hN₂.storages (f := fun _ i => (Dispatch.blend x y D₁ D₂).fout g d i t) (f₁ := fun _ i => D₁.fout g d i t) (f₂ := fun _ i => D₂.fout g d i t)
          (x := x) (y := y) (fun _ _ _ _ _ _ _ _ _ => rfl)]
      ring
    have hout : outgoing s k (D₁.blend x y D₂) g d n t =
        x * outgoing s₁ k₁ D₁ g d n₁ t + y * outgoing s₂ k₂ D₂ g d n₂ t := by
      unfold outgoing
      rw [to_blend hm.first hm.second,
        sumI_three hN₁.consumptions hN₂.consumptions (f₁ := fun c i => val c.quantity k₁ t - D₁.lol g d i t)
          (f₂ := fun c i => val c.quantity k₂ t - D₂.lol g d i t) (x := x) (y := y) (by
            intro i a b c ha hb hc _ _
            rw [hm.consumptions g d n₁ n₂ n hn₁ hn₂ hn i a b c ha hb hc t ht]
            simp only [Dispatch.blend]
            ring),
        sumI_three hN₁.storages hN₂.storages (f := fun _ i => (Dispatch.blend x y D₁ D₂).fin g d i t) (f₁ := fun _ i => D₁.fin g d i t) (f₂ := fun _ i => D₂.fin g d i t)
          (x := x) (y := y) (fun _ _ _ _ _ _ _ _ _ => rfl),
        sumI_three hN₁.links hN₂.links (f := fun _ i => (Dispatch.blend x y D₁ D₂).link g d i t) (f₁ := fun _ i => D₁.link g d i t) (f₂ := fun _ i => D₂.link g d i t)
          (x := x) (y := y) (fun _ _ _ _ _ _ _ _ _ => rfl)]
      ring
    have hself : selfFlow (D₁.blend x y D₂) g d n t = x * selfFlow D₁ g d n₁ t + y * selfFlow D₂ g d n₂ t := by
      unfold selfFlow
      apply sumI_three hN₁.links hN₂.links
      rintro i a b c - - - ⟨e1, -⟩ ⟨e2, -⟩
      rw [e1, e2]
      split_ifs
      · rfl
      · ring
    rw [hin, hout, hself, ← e₁, ← e₂]
    ring
  · intro g d n hn c hc t ht
    rw [List.head?_eq_getElem?] at hc
    obtain ⟨n₁, hn₁, hN₁⟩ := Alike.node hm.first hn
    obtain ⟨n₂, hn₂, hN₂⟩ := Alike.node hm.second hn
    obtain ⟨c₁, hc₁, hq₁⟩ := forall₂_get_right hN₁.storages hc
    obtain ⟨c₂, hc₂, hq₂⟩ := forall₂_get_right hN₂.storages hc
    have e₁ := hf₁.storages g d n₁ hn₁ c₁ (by rw [List.head?_eq_getElem?]; exact hc₁) t (hh₁ ▸ ht)
    have e₂ := hf₂.storages g d n₂ hn₂ c₂ (by rw [List.head?_eq_getElem?]; exact hc₂) t (hh₂ ▸ ht)
    have h0 := (hm.storages g d n₁ n₂ n hn₁ hn₂ hn 0 c₁ c₂ c hc₁ hc₂ hc).1
    unfold Evolves at e₁ e₂ ⊢
    rw [hq₁.2.2.2.2.2 t (hh₁ ▸ ht)] at e₁
    rw [hq₂.2.2.2.2.2 t (hh₂ ▸ ht)] at e₂
    cases t with
    | zero =>
      simp only [levelBefore, Dispatch.blend] at e₁ e₂ ⊢
      rw [e₁, e₂, h0]
      ring
    | succ t =>
      simp only [levelBefore, Dispatch.blend] at e₁ e₂ ⊢
      rw [e₁, e₂]
      ring
  · intro p hp g d r hq t ht
    obtain ⟨p₁, hp₁, e₁, hC₁⟩ := Alike.conv hm.first hp
    obtain ⟨p₂, hp₂, e₂, hC₂⟩ := Alike.conv hm.second hp
    obtain ⟨⟨key₁, r₁⟩, hq₁, ek₁, hs₁⟩ := forall₂_mem_right hC₁.sources hq
    obtain ⟨⟨key₂, r₂⟩, hq₂, ek₂, hs₂⟩ := forall₂_mem_right hC₂.sources hq
    dsimp only at ek₁ ek₂ hs₁ hs₂
    subst ek₁ ek₂
    have b1 := hf₁.ratios p₁ hp₁ g d r₁ hq₁ t (hh₁ ▸ ht)
    have b2 := hf₂.ratios p₂ hp₂ g d r₂ hq₂ t (hh₂ ▸ ht)
    rw [hs₁ t (hh₁ ▸ ht), e₁] at b1
    rw [hs₂ t (hh₂ ▸ ht), e₂] at b2
    simp only [Dispatch.blend]
    rw [← b1, ← b2]
    ring

/-- the cost of a mixture of dispatches -/
theorem blend_cost (h₁ : SameShape s₁ k₁ s k) (h₂ : SameShape s₂ k₂ s k) :
    cost s k (D₁.blend x y D₂) = x * cost s₁ k₁ D₁ + y * cost s₂ k₂ D₂ := by
  have hh₁ : s₁.horizon = s.horizon := Alike.horizon h₁
  have hh₂ : s₂.horizon = s.horizon := Alike.horizon h₂
  unfold cost
  rw [hh₁, hh₂]
  apply sumL_three (R₁ := Eq) (R₂ := Eq) (List.forall₂_refl (List.range s.horizon)) (List.forall₂_refl _)
  rintro t1 - t ht t3 - e1 e2
  subst e1 e2
  have ht : t < s.horizon := by simpa using ht
  rw [mul_add, mul_add]
  have key : ∀ a b c d : ℚ, a + c + (b + d) = a + b + (c + d) := fun a b c d => by ring
  rw [key]
  refine congrArg₂ (· + ·) ?_ ?_
  · apply sumL_three (Alike.networks h₁) (Alike.networks h₂)
    rintro ⟨g1, net1⟩ _ ⟨g2, net2⟩ _ ⟨g3, net3⟩ _ ⟨e1, hnet1⟩ ⟨e2, hnet2⟩
    dsimp only at e1 e2 hnet1 hnet2 ⊢
    subst e1 e2
    apply sumL_three hnet1 hnet2
    rintro ⟨d1, n1⟩ _ ⟨d2, n2⟩ _ ⟨d3, n3⟩ _ ⟨e1, hN1⟩ ⟨e2, hN2⟩
    dsimp only at e1 e2 hN1 hN2 ⊢
    subst e1 e2
    unfold nodeCost
    rw [sumI_three hN1.consumptions hN2.consumptions (x := x) (y := y)
        (f₁ := fun c i => val c.cost k₁ t * D₁.lol g2 d2 i t) (f₂ := fun c i => val c.cost k₂ t * D₂.lol g2 d2 i t) (by
          rintro i a b c - - - ⟨e1, -⟩ ⟨e2, -⟩
          rw [e1 t (hh₁ ▸ ht), e2 t (hh₂ ▸ ht)]
          simp only [Dispatch.blend]
          ring),
      sumI_three hN1.productions hN2.productions (x := x) (y := y)
        (f₁ := fun c i => val c.cost k₁ t * D₁.prod g2 d2 i t) (f₂ := fun c i => val c.cost k₂ t * D₂.prod g2 d2 i t) (by
          rintro i a b c - - - ⟨e1, -⟩ ⟨e2, -⟩
          rw [e1 t (hh₁ ▸ ht), e2 t (hh₂ ▸ ht)]
          simp only [Dispatch.blend]
          ring),
      sumI_three hN1.storages hN2.storages (x := x) (y := y)
        (f₁ := fun c i => val c.cost k₁ t * D₁.cap g2 d2 i t) (f₂ := fun c i => val c.cost k₂ t * D₂.cap g2 d2 i t) (by
          rintro i a b c - - - ⟨-, -, -, e1, -⟩ ⟨-, -, -, e2, -⟩
          rw [e1 t (hh₁ ▸ ht), e2 t (hh₂ ▸ ht)]
          simp only [Dispatch.blend]
          ring),
      sumI_three hN1.links hN2.links (x := x) (y := y)
        (f₁ := fun c i => val c.cost k₁ t * D₁.link g2 d2 i t) (f₂ := fun c i => val c.cost k₂ t * D₂.link g2 d2 i t) (by
          rintro i a b c - - - ⟨-, e1, -⟩ ⟨-, e2, -⟩
          rw [e1 t (hh₁ ▸ ht), e2 t (hh₂ ▸ ht)]
          simp only [Dispatch.blend]
          ring)]
    ring
  · apply sumL_three (Alike.converters h₁) (Alike.converters h₂)
    rintro p1 _ p2 _ p _ ⟨e1, hC1⟩ ⟨e2, hC2⟩
    rw [hC1.cost t (hh₁ ▸ ht), hC2.cost t (hh₂ ▸ ht), e1, e2]
    simp only [Dispatch.blend]
    ring

/-- the cost of a dispatch when costs are mixed -/
theorem Spec.CostsBlended.cost (hm : CostsBlended x y s₁ k₁ s₂ k₂ s k) :
    Spec.cost s k D = x * Spec.cost s₁ k₁ D + y * Spec.cost s₂ k₂ D := by
  have h₁ := hm.first
  have h₂ := hm.second
  have hh₁ : s₁.horizon = s.horizon := Alike.horizon h₁
  have hh₂ : s₂.horizon = s.horizon := Alike.horizon h₂
  unfold Spec.cost
  rw [hh₁, hh₂]
  apply sumL_three (R₁ := Eq) (R₂ := Eq) (List.forall₂_refl (List.range s.horizon)) (List.forall₂_refl _)
  rintro t1 - t ht t3 - e1 e2
  subst e1 e2
  have ht : t < s.horizon := by simpa using ht
  rw [mul_add, mul_add]
  have key : ∀ a b c d : ℚ, a + c + (b + d) = a + b + (c + d) := fun a b c d => by ring
  rw [key]
  refine congrArg₂ (· + ·) ?_ ?_
  · apply sumL_three (Alike.networks h₁) (Alike.networks h₂)
    rintro ⟨g1, net1⟩ hg1 ⟨g2, net2⟩ hg2 ⟨g3, net3⟩ hg3 ⟨e1, hnet1⟩ ⟨e2, hnet2⟩
    dsimp only at e1 e2 hnet1 hnet2 ⊢
    subst e1 e2
    apply sumL_three hnet1 hnet2
    rintro ⟨d1, n1⟩ hd1 ⟨d2, n2⟩ hd2 ⟨d3, n3⟩ hd3 ⟨e1, hN1⟩ ⟨e2, hN2⟩
    dsimp only at e1 e2 hN1 hN2 ⊢
    subst e1 e2
    have m1 : HasNode s₁ g2 d2 n1 := ⟨net1, hg1, hd1⟩
    have m2 : HasNode s₂ g2 d2 n2 := ⟨net2, hg2, hd2⟩
    have m3 : HasNode s g2 d2 n3 := ⟨net3, hg3, hd3⟩
    unfold nodeCost
    rw [sumI_three hN1.consumptions hN2.consumptions (x := x) (y := y)
        (f₁ := fun c i => val c.cost k₁ t * D.lol g2 d2 i t) (f₂ := fun c i => val c.cost k₂ t * D.lol g2 d2 i t) (by
          intro i a b c ha hb hc _ _
          rw [hm.consumptions g2 d2 n1 n2 n3 m1 m2 m3 i a b c ha hb hc t ht]
          ring),
      sumI_three hN1.productions hN2.productions (x := x) (y := y)
        (f₁ := fun c i => val c.cost k₁ t * D.prod g2 d2 i t) (f₂ := fun c i => val c.cost k₂ t * D.prod g2 d2 i t) (by
          intro i a b c ha hb hc _ _
          rw [hm.productions g2 d2 n1 n2 n3 m1 m2 m3 i a b c ha hb hc t ht]
          ring),
      sumI_three hN1.storages hN2.storages (x := x) (y := y)
        (f₁ := fun c i => val c.cost k₁ t * D.cap g2 d2 i t) (f₂ := fun c i => val c.cost k₂ t * D.cap g2 d2 i t) (by
          intro i a b c ha hb hc _ _
          rw [hm.storages g2 d2 n1 n2 n3 m1 m2 m3 i a b c ha hb hc t ht]
          ring),
      sumI_three hN1.links hN2.links (x := x) (y := y)
        (f₁ := fun c i => val c.cost k₁ t * D.link g2 d2 i t) (f₂ := fun c i => val c.cost k₂ t * D.link g2 d2 i t) (by
          intro i a b c ha hb hc _ _
          rw [hm.links g2 d2 n1 n2 n3 m1 m2 m3 i a b c ha hb hc t ht]
          ring)]
    ring
  · apply sumL_three (Alike.converters h₁) (Alike.converters h₂)
    rintro p1 hp1 p2 hp2 p hp ⟨e1, hC1⟩ ⟨e2, hC2⟩
    rw [hm.converters p1 hp1 p2 hp2 p hp e1 e2 t ht, e1, e2]
    ring

/-- studies with the same quantities have the same dispatches -/
theorem sameQuantities_feasible (h : SameQuantities s₁ k₁ s k) (hr : RatiosNonneg s k) (hf : CodeFeasible s k D) :
    CodeFeasible s₁ k₁ D := by
  have := Compared.codeFeasible (b := 1) zero_le_one (Compared.imp (fun _ _ h => h) (fun _ _ h => by linarith)
    (fun _ _ h => by linarith) (Compared.flip h)) hr hf
  rwa [Dispatch.scale_one] at this

end

end Hadar
