import Verif.Spec.Cascade
import Verif.Proofs.Plant

/-!
# Two converters in a row: lemmas
-/

namespace Hadar

open Spec

section

variable {s s' : Study} {k : ℕ} {g m g₁ d₁ a b : String} {A B C : Converter} {r₁ r₂ r₃ : NumVal} {kept : List (String × Converter)}
  {D : Dispatch} (h : Cascaded s s' k g m g₁ d₁ a b A B C r₁ r₂ r₃ kept) (hi : StudyInv s)

include h in
theorem Spec.Cascaded.node {g' d : String} {n : InputNode} : HasNode s g' d n ↔ HasNode s' g' d n := by
  unfold HasNode
  rw [h.networks]

include h hi in
theorem Spec.Cascaded.names : (∀ q ∈ kept, q.1 ≠ a ∧ q.1 ≠ b) ∧ a ≠ b := by
  have hnd := hi.names.converters
  rw [h.both] at hnd
  simp only [List.map_append, List.map_cons, List.map_nil, List.nodup_append, List.mem_map, List.mem_cons, List.not_mem_nil, or_false] at hnd
  obtain ⟨-, h2, h3⟩ := hnd
  refine ⟨fun q hq => ⟨h3 q.1 ⟨q, hq, rfl⟩ a (Or.inl rfl), h3 q.1 ⟨q, hq, rfl⟩ b (Or.inr rfl)⟩, ?_⟩
  intro e
  subst e
  simp at h2

include h in
theorem from_cascade (g' d : String) (t : ℕ) :
    fromConverters s D g' d t = fromConverters s' D g' d t + if g' = g ∧ d = m then D.convDest a t else 0 := by
  unfold fromConverters
  rw [h.both, h.one, sumL_append, sumL_append, add_assoc]
  congr 1
  simp only [sumL, List.map_cons, List.map_nil, List.sum_cons, List.sum_nil, add_zero, h.firstTo.1, h.firstTo.2, h.oneTo.1, h.oneTo.2]
  rw [add_comm]
  congr 1
  have e : (g = g' ∧ m = d) ↔ (g' = g ∧ d = m) := by constructor <;> (rintro ⟨rfl, rfl⟩; exact ⟨rfl, rfl⟩)
  simp only [e]

include h in
theorem to_cascade {t : ℕ} (hp : D.convSrc b (g₁, d₁) t = D.convSrc a (g₁, d₁) t) (g' d : String) :
    toConverters s D g' d t = toConverters s' D g' d t + if g' = g ∧ d = m then D.convSrc b (g, m) t else 0 := by
  unfold toConverters
  rw [h.both, h.one, sumL_append, sumL_append, add_assoc]
  congr 1
  simp only [sumL, List.map_cons, List.map_nil, List.sum_cons, List.sum_nil, add_zero, h.firstFrom, h.secondFrom, h.oneFrom]
  congr 1
  · by_cases e : g₁ = g' ∧ d₁ = d
    · obtain ⟨rfl, rfl⟩ := e
      simp [hp]
    · have : ¬ [g₁, d₁] = [g', d] := by simpa using e
      rw [if_neg this, if_neg this]
  · by_cases e : g' = g ∧ d = m
    · obtain ⟨rfl, rfl⟩ := e
      simp
    · have : ¬ [g, m] = [g', d] := by
        intro e'
        simp only [List.cons.injEq, and_true] at e'
        exact e ⟨e'.1.symm, e'.2.symm⟩
      rw [if_neg this, if_neg e]

include h in
theorem imports_cascade (g' d : String) (t : ℕ) : imports s D g' d t = imports s' D g' d t := by
  unfold imports
  rw [h.networks]

include h in
theorem balance_cascade (hp : GoesDown s.horizon g m g₁ d₁ a b D) (g' d : String) (n : InputNode) {t : ℕ} (ht : t < s.horizon) :
    incoming s D g' d n t - outgoing s k D g' d n t = incoming s' D g' d n t - outgoing s' k D g' d n t := by
  unfold incoming outgoing
  rw [imports_cascade h, from_cascade h, to_cascade h (hp t ht).2, (hp t ht).1]
  ring

include h in
/-- where energy is balanced at the node between, the second converter takes what the first one gives -/
theorem between_balance {n : InputNode} (hn : HasNode s g m n) (hi : StudyInv s) {t : ℕ}
    (hb : incoming s D g m n t = outgoing s k D g m n t) : D.convDest a t = D.convSrc b (g, m) t := by
  obtain ⟨n', hn', b1, b2, b3, b4⟩ := h.bare
  obtain rfl := hasNode_unique hi hn hn'
  have i1 : imports s D g m t = 0 := by
    have h0 : Hadar.sumN s (fun _ _ _ => 0) = 0 := by simp [Hadar.sumN, sumL]
    rw [imports_sumN]
    refine (sumN_congr fun g' d x hx => ?_).trans h0
    by_cases e0 : g' = g
    · subst e0
      rw [if_pos rfl]
      refine (sumI_congr fun y i hy => ?_).trans (sumI_zero x.links)
      exact if_neg (h.unreached d x hx y (List.mem_of_getElem? hy))
    · exact if_neg e0
  have i2 : fromConverters s D g m t = D.convDest a t := by
    unfold fromConverters
    rw [h.both, sumL_append, sumL_eq_zero (l := kept) fun q hq => if_neg (h.unused q hq).1]
    simp [sumL, h.firstTo, h.notBack]
  have o2 : toConverters s D g m t = D.convSrc b (g, m) t := by
    unfold toConverters
    rw [h.both, sumL_append, sumL_eq_zero (l := kept) fun q hq => sumL_eq_zero fun r hr => if_neg ((h.unused q hq).2 r hr)]
    have := h.notSelf
    simp [sumL, h.firstFrom, h.secondFrom, this]
  unfold incoming outgoing at hb
  rw [i1, i2, o2, b1, b2, b3, b4] at hb
  simpa [sumI] using hb

include h in
theorem ratios_cascade (hp : GoesDown s.horizon g m g₁ d₁ a b D)
    (hd : ∀ t < s.horizon, D.convSrc a (g₁, d₁) t * val r₁ k t = D.convDest a t) : RatiosOk s k D ↔ RatiosOk s' k D := by
  have hm : ∀ {q : String × Converter}, q ∈ kept → q ∈ s.converters ∧ q ∈ s'.converters := by
    intro q hq
    rw [h.both, h.one]
    exact ⟨List.mem_append_left _ hq, List.mem_append_left _ hq⟩
  have ha : (a, A) ∈ s.converters := by rw [h.both]; simp
  have hb : (b, B) ∈ s.converters := by rw [h.both]; simp
  have hc : (b, C) ∈ s'.converters := by rw [h.one]; simp
  constructor
  · intro hD q hq g' d r hr t ht
    have ht' : t < s.horizon := h.horizon ▸ ht
    have hq0 := hq
    rw [h.one, List.mem_append, List.mem_singleton] at hq
    rcases hq with hq | rfl
    · exact hD q (hm hq).1 g' d r hr t ht'
    · simp only [h.oneFrom, List.mem_singleton, Prod.mk.injEq, List.cons.injEq, and_true] at hr
      obtain ⟨⟨rfl, rfl⟩, rfl⟩ := hr
      have e2 := hD (b, B) hb g m r₂ (by simp [h.secondFrom]) t ht'
      dsimp only at e2 ⊢
      rw [← e2, ← (hp t ht').1, ← hd t ht', (hp t ht').2, h.ratio t ht']
      ring
  · intro hD q hq g' d r hr t ht
    have ht' : t < s'.horizon := h.horizon ▸ ht
    rw [h.both, List.mem_append, List.mem_cons, List.mem_singleton] at hq
    rcases hq with hq | rfl | rfl
    · exact hD q (hm hq).2 g' d r hr t ht'
    · simp only [h.firstFrom, List.mem_singleton, Prod.mk.injEq, List.cons.injEq, and_true] at hr
      obtain ⟨⟨rfl, rfl⟩, rfl⟩ := hr
      exact hd t ht
    · simp only [h.secondFrom, List.mem_singleton, Prod.mk.injEq, List.cons.injEq, and_true] at hr
      obtain ⟨⟨rfl, rfl⟩, rfl⟩ := hr
      have e2 := hD (b, C) hc g₁ d₁ r₃ (by simp [h.oneFrom]) t ht'
      dsimp only at e2 ⊢
      rw [← e2, ← (hp t ht).1, ← hd t ht, (hp t ht).2, h.ratio t ht]
      ring

include h in
theorem bounds_cascade (hp : GoesDown s.horizon g m g₁ d₁ a b D)
    (hd : ∀ t < s.horizon, D.convSrc a (g₁, d₁) t * val r₁ k t = D.convDest a t)
    (hd2 : ∀ t < s.horizon, D.convSrc b (g, m) t * val r₂ k t = D.convDest b t) : Bounds s k D ↔ Bounds s' k D := by
  have hm : ∀ {q : String × Converter}, q ∈ kept → q ∈ s.converters ∧ q ∈ s'.converters := by
    intro q hq
    rw [h.both, h.one]
    exact ⟨List.mem_append_left _ hq, List.mem_append_left _ hq⟩
  have ha : (a, A) ∈ s.converters := by rw [h.both]; simp
  have hb : (b, B) ∈ s.converters := by rw [h.both]; simp
  have hc : (b, C) ∈ s'.converters := by rw [h.one]; simp
  constructor
  · intro hD
    have key : ∀ t < s.horizon, 0 ≤ D.convSrc a (g₁, d₁) t ∧ 0 ≤ D.convDest b t ∧ D.convDest b t ≤ fval C.max k t := by
      intro t ht
      obtain ⟨p1, p2⟩ := h.positive t ht
      have x1 := (hD.convSrc _ ha g₁ d₁ r₁ (by simp [h.firstFrom]) t ht).1
      have x2 := hD.convDest _ ha t ht
      have x3 := hD.convDest _ hb t ht
      dsimp only at x1 x2 x3
      refine ⟨x1, x3.1, ?_⟩
      rw [h.max t ht]
      refine le_min x3.2 ?_
      rw [← hd2 t ht, ← (hp t ht).1]
      exact mul_le_mul_of_nonneg_right x2.2 p2.le
    refine ⟨?_, ?_, ?_, ?_, ?_, ?_⟩
    · exact fun g' d n hn i x hx t ht => hD.consumptions g' d n (h.node.mpr hn) i x hx t (h.horizon ▸ ht)
    · exact fun g' d n hn i x hx t ht => hD.productions g' d n (h.node.mpr hn) i x hx t (h.horizon ▸ ht)
    · exact fun g' d n hn i x hx t ht => hD.storages g' d n (h.node.mpr hn) i x hx t (h.horizon ▸ ht)
    · exact fun g' d n hn i x hx t ht => hD.links g' d n (h.node.mpr hn) i x hx t (h.horizon ▸ ht)
    · intro q hq g' d r hr t ht
      have ht' : t < s.horizon := h.horizon ▸ ht
      rw [h.one, List.mem_append, List.mem_singleton] at hq
      rcases hq with hq | rfl
      · exact hD.convSrc q (hm hq).1 g' d r hr t ht'
      · simp only [h.oneFrom, List.mem_singleton, Prod.mk.injEq, List.cons.injEq, and_true] at hr
        obtain ⟨⟨rfl, rfl⟩, rfl⟩ := hr
        obtain ⟨p1, p2⟩ := h.positive t ht'
        obtain ⟨k1, k2, k3⟩ := key t ht'
        dsimp only
        rw [(hp t ht').2]
        refine ⟨k1, fun _ => ?_⟩
        rw [h.ratio t ht', le_div_iff₀ (mul_pos p1 p2), ← mul_assoc, hd t ht', (hp t ht').1, hd2 t ht']
        exact k3
    · intro q hq t ht
      have ht' : t < s.horizon := h.horizon ▸ ht
      rw [h.one, List.mem_append, List.mem_singleton] at hq
      rcases hq with hq | rfl
      · exact hD.convDest q (hm hq).1 t ht'
      · exact (key t ht').2
  · intro hD
    have key : ∀ t < s.horizon, 0 ≤ D.convSrc a (g₁, d₁) t ∧ (0 ≤ D.convDest a t ∧ D.convDest a t ≤ fval A.max k t) ∧
        0 ≤ D.convDest b t ∧ D.convDest b t ≤ fval B.max k t := by
      intro t ht
      obtain ⟨p1, p2⟩ := h.positive t ht
      have x1 := (hD.convSrc _ hc g₁ d₁ r₃ (by simp [h.oneFrom]) t (h.horizon ▸ ht)).1
      have x2 := hD.convDest _ hc t (h.horizon ▸ ht)
      dsimp only at x1 x2
      rw [(hp t ht).2] at x1
      have x3 := x2.2
      rw [h.max t ht] at x3
      have x4 := x3.trans (min_le_right _ _)
      rw [← hd2 t ht, ← (hp t ht).1] at x4
      refine ⟨x1, ⟨?_, le_of_mul_le_mul_right x4 p2⟩, x2.1, x3.trans (min_le_left _ _)⟩
      rw [← hd t ht]
      exact mul_nonneg x1 p1.le
    refine ⟨?_, ?_, ?_, ?_, ?_, ?_⟩
    · exact fun g' d n hn i x hx t ht => hD.consumptions g' d n (h.node.mp hn) i x hx t (h.horizon ▸ ht)
    · exact fun g' d n hn i x hx t ht => hD.productions g' d n (h.node.mp hn) i x hx t (h.horizon ▸ ht)
    · exact fun g' d n hn i x hx t ht => hD.storages g' d n (h.node.mp hn) i x hx t (h.horizon ▸ ht)
    · exact fun g' d n hn i x hx t ht => hD.links g' d n (h.node.mp hn) i x hx t (h.horizon ▸ ht)
    · intro q hq g' d r hr t ht
      obtain ⟨p1, p2⟩ := h.positive t ht
      obtain ⟨k1, k2, k3⟩ := key t ht
      rw [h.both, List.mem_append, List.mem_cons, List.mem_singleton] at hq
      rcases hq with hq | rfl | rfl
      · exact hD.convSrc q (hm hq).2 g' d r hr t (h.horizon ▸ ht)
      · simp only [h.firstFrom, List.mem_singleton, Prod.mk.injEq, List.cons.injEq, and_true] at hr
        obtain ⟨⟨rfl, rfl⟩, rfl⟩ := hr
        refine ⟨k1, fun _ => ?_⟩
        dsimp only
        rw [le_div_iff₀ p1, hd t ht]
        exact k2.2
      · simp only [h.secondFrom, List.mem_singleton, Prod.mk.injEq, List.cons.injEq, and_true] at hr
        obtain ⟨⟨rfl, rfl⟩, rfl⟩ := hr
        dsimp only
        refine ⟨by rw [← (hp t ht).1]; exact k2.1, fun _ => ?_⟩
        rw [le_div_iff₀ p2, hd2 t ht]
        exact k3.2
    · intro q hq t ht
      obtain ⟨k1, k2, k3⟩ := key t ht
      rw [h.both, List.mem_append, List.mem_cons, List.mem_singleton] at hq
      rcases hq with hq | rfl | rfl
      · exact hD.convDest q (hm hq).2 t (h.horizon ▸ ht)
      · exact k2
      · exact k3

include h in
theorem cost_cascade (hp : GoesDown s.horizon g m g₁ d₁ a b D)
    (hd2 : ∀ t < s.horizon, D.convSrc b (g, m) t * val r₂ k t = D.convDest b t) : cost s k D = cost s' k D := by
  unfold cost
  rw [← h.horizon, ← h.networks]
  apply sumL_congr
  intro t ht
  have ht : t < s.horizon := by simpa using ht
  congr 1
  rw [h.both, h.one, sumL_append, sumL_append]
  congr 1
  have p2 := (h.positive t ht).2.ne'
  simp only [sumL, List.map_cons, List.map_nil, List.sum_cons, List.sum_nil, add_zero]
  rw [h.cost t ht, ← hd2 t ht, (hp t ht).1]
  field_simp
  ring

include h in
theorem code_cascade (hp : GoesDown s.horizon g m g₁ d₁ a b D)
    (hd : ∀ t < s.horizon, D.convSrc a (g₁, d₁) t * val r₁ k t = D.convDest a t)
    (hd2 : ∀ t < s.horizon, D.convSrc b (g, m) t * val r₂ k t = D.convDest b t) : CodeFeasible s k D ↔ CodeFeasible s' k D := by
  constructor
  · intro hD
    refine ⟨(bounds_cascade h hp hd hd2).mp hD.bounds, ?_, ?_, (ratios_cascade h hp hd).mp hD.ratios⟩
    · intro g' d n hn t ht
      have ht' : t < s.horizon := h.horizon ▸ ht
      have := hD.balance g' d n (h.node.mpr hn) t ht'
      linarith [balance_cascade h hp g' d n ht']
    · exact fun g' d n hn x hx t ht => hD.storages g' d n (h.node.mpr hn) x hx t (h.horizon ▸ ht)
  · intro hD
    refine ⟨(bounds_cascade h hp hd hd2).mpr hD.bounds, ?_, ?_, (ratios_cascade h hp hd).mpr hD.ratios⟩
    · intro g' d n hn t ht
      have := hD.balance g' d n (h.node.mp hn) t (h.horizon ▸ ht)
      linarith [balance_cascade h hp g' d n ht]
    · exact fun g' d n hn x hx t ht => hD.storages g' d n (h.node.mp hn) x hx t (h.horizon ▸ ht)

include h in
theorem feasible_cascade (hp : GoesDown s.horizon g m g₁ d₁ a b D)
    (hd : ∀ t < s.horizon, D.convSrc a (g₁, d₁) t * val r₁ k t = D.convDest a t)
    (hd2 : ∀ t < s.horizon, D.convSrc b (g, m) t * val r₂ k t = D.convDest b t) : Spec.Feasible s k D ↔ Spec.Feasible s' k D := by
  constructor
  · intro hD
    refine ⟨(bounds_cascade h hp hd hd2).mp hD.bounds, ?_, ?_, (ratios_cascade h hp hd).mp hD.ratios⟩
    · intro g' d n hn t ht
      have ht' : t < s.horizon := h.horizon ▸ ht
      have := hD.balanced g' d n (h.node.mpr hn) t ht'
      linarith [balance_cascade h hp g' d n ht']
    · exact fun g' d n hn i x hx t ht => hD.storages g' d n (h.node.mpr hn) i x hx t (h.horizon ▸ ht)
  · intro hD
    refine ⟨(bounds_cascade h hp hd hd2).mpr hD.bounds, ?_, ?_, (ratios_cascade h hp hd).mpr hD.ratios⟩
    · intro g' d n hn t ht
      have := hD.balanced g' d n (h.node.mp hn) t (h.horizon ▸ ht)
      linarith [balance_cascade h hp g' d n ht]
    · exact fun g' d n hn i x hx t ht => hD.storages g' d n (h.node.mp hn) i x hx t (h.horizon ▸ ht)

include h in
theorem ratios_both (hD : RatiosOk s k D) : (∀ t < s.horizon, D.convSrc a (g₁, d₁) t * val r₁ k t = D.convDest a t) ∧
    ∀ t < s.horizon, D.convSrc b (g, m) t * val r₂ k t = D.convDest b t :=
  ⟨fun t ht => hD (a, A) (by rw [h.both]; simp) g₁ d₁ r₁ (by simp [h.firstFrom]) t ht,
   fun t ht => hD (b, B) (by rw [h.both]; simp) g m r₂ (by simp [h.secondFrom]) t ht⟩

include h hi in
theorem asOne_same (D : Dispatch) : SameFlows s D (asOne g₁ d₁ a b D) where
  lol _ _ _ _ _ _ _ _ := rfl
  prod _ _ _ _ _ _ _ _ := rfl
  cap _ _ _ _ _ _ _ _ := rfl
  fin _ _ _ _ _ _ _ _ := rfl
  fout _ _ _ _ _ _ _ _ := rfl
  link _ _ _ _ _ _ _ _ := rfl
  convSrc q hq g' d hr t ht := by
    have : ¬ (q.1 = b ∧ (g', d) = (g₁, d₁)) := by
      rintro ⟨e, e'⟩
      obtain ⟨rfl, rfl⟩ := Prod.mk.inj e'
      rw [h.both, List.mem_append, List.mem_cons, List.mem_singleton] at hq
      rcases hq with hq | rfl | rfl
      · exact ((h.names hi).1 q hq).2 e
      · exact (h.names hi).2 e
      · simp [h.secondFrom] at hr
        exact h.notSelf hr
    simp only [asOne]
    rw [if_neg this]
  convDest _ _ _ _ := rfl

include h hi in
theorem asTwo_same (D : Dispatch) : SameFlows s' D (asTwo k g m g₁ d₁ a b r₁ D) where
  lol _ _ _ _ _ _ _ _ := rfl
  prod _ _ _ _ _ _ _ _ := rfl
  cap _ _ _ _ _ _ _ _ := rfl
  fin _ _ _ _ _ _ _ _ := rfl
  fout _ _ _ _ _ _ _ _ := rfl
  link _ _ _ _ _ _ _ _ := rfl
  convSrc q hq g' d hr t ht := by
    rw [h.one, List.mem_append, List.mem_singleton] at hq
    have e1 : q.1 ≠ a := by
      rcases hq with hq | rfl
      · exact ((h.names hi).1 q hq).1
      · exact (h.names hi).2.symm
    have e2 : ¬ (q.1 = b ∧ (g', d) = (g, m)) := by
      rintro ⟨e, e'⟩
      obtain ⟨rfl, rfl⟩ := Prod.mk.inj e'
      rcases hq with hq | rfl
      · exact ((h.names hi).1 q hq).2 e
      · simp [h.oneFrom] at hr
        exact h.notSelf ⟨hr.1.symm, hr.2.symm⟩
    simp only [asTwo]
    rw [if_neg e1, if_neg e2]
  convDest q hq t ht := by
    rw [h.one, List.mem_append, List.mem_singleton] at hq
    have e1 : q.1 ≠ a := by
      rcases hq with hq | rfl
      · exact ((h.names hi).1 q hq).1
      · exact (h.names hi).2.symm
    simp only [asTwo]
    rw [if_neg e1]

include h hi in
theorem asOne_down (hD : ∀ t < s.horizon, D.convDest a t = D.convSrc b (g, m) t) : GoesDown s.horizon g m g₁ d₁ a b (asOne g₁ d₁ a b D) := by
  intro t ht
  have e1 := (h.names hi).2
  have e2 : ¬ (g = g₁ ∧ m = d₁) := fun e => h.notSelf ⟨e.1.symm, e.2.symm⟩
  simp [asOne, e1, e2, hD t ht]

include h hi in
theorem asTwo_down (D : Dispatch) : GoesDown s.horizon g m g₁ d₁ a b (asTwo k g m g₁ d₁ a b r₁ D) := by
  intro t ht
  have e1 := (h.names hi).2.symm
  have e2 := h.notSelf
  simp [asTwo, e1, e2]

include h hi in
theorem asTwo_ratios (hD : RatiosOk s' k D) :
    (∀ t < s.horizon, (asTwo k g m g₁ d₁ a b r₁ D).convSrc a (g₁, d₁) t * val r₁ k t = (asTwo k g m g₁ d₁ a b r₁ D).convDest a t) ∧
    ∀ t < s.horizon, (asTwo k g m g₁ d₁ a b r₁ D).convSrc b (g, m) t * val r₂ k t = (asTwo k g m g₁ d₁ a b r₁ D).convDest b t := by
  have e1 := (h.names hi).2.symm
  refine ⟨fun t ht => by simp [asTwo], fun t ht => ?_⟩
  have e3 := hD (b, C) (by rw [h.one]; simp) g₁ d₁ r₃ (by simp [h.oneFrom]) t (h.horizon ▸ ht)
  dsimp only at e3
  rw [h.ratio t ht] at e3
  simp [asTwo, e1]
  rw [← e3]
  ring

end

end Hadar
