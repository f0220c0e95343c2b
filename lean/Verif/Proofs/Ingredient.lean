import Verif.Spec.Ingredient
import Verif.Proofs.Plant

/-!
# A converter with one source of its own: lemmas
-/

namespace Hadar

open Spec

section

variable {s s' : Study} {k : ℕ} {g m a : String} {A A' : Converter} {srcs : List (List String × NumVal)} {r : NumVal} {p : Production}
  {kept : List (String × Converter)} {D : Dispatch} (h : Supplied s s' k g m a A A' srcs r p kept) (hi : StudyInv s) (hi' : StudyInv s')

include h hi' in
theorem Spec.Supplied.rel {g' d : String} {n n' : InputNode} (hn : HasNode s g' d n)
    (hn' : HasNode s' g' d n') : IngredientNode g m p g' d n n' := by
  obtain ⟨x, hx, he⟩ := h.nodes g' d n hn
  obtain rfl := hasNode_unique hi' hx hn'
  exact he

include h hi in
theorem Spec.Supplied.names : ∀ q ∈ kept, q.1 ≠ a := by
  have hnd := hi.names.converters
  rw [h.with'] at hnd
  simp only [List.map_append, List.map_cons, List.map_nil, List.nodup_append, List.mem_map, List.mem_cons, List.not_mem_nil, or_false] at hnd
  exact fun q hq => hnd.2.2 q.1 ⟨q, hq, rfl⟩ a rfl

include h hi hi' in
theorem Spec.Supplied.sumN {f f' : String → String → InputNode → ℚ} {x : ℚ}
    (hf : ∀ g' d n n', HasNode s g' d n → HasNode s' g' d n' → IngredientNode g m p g' d n n' →
      f g' d n = f' g' d n' + if g' = g ∧ d = m then x else 0) :
    Hadar.sumN s f = Hadar.sumN s' f' + x := by
  have h1 : Hadar.sumN s f = Hadar.sumN s' fun g' d n' => f' g' d n' + if g' = g ∧ d = m then x else 0 := by
    rw [sumN_nodesOf, sumN_nodesOf]
    apply sumL_keyed (nodup_nodesOf hi) (nodup_nodesOf hi')
    · rintro ⟨⟨g', d⟩, n⟩ hp
      obtain ⟨n', hn', -⟩ := h.nodes g' d n (mem_nodesOf.mp hp)
      exact ⟨((g', d), n'), mem_nodesOf.mpr hn', rfl⟩
    · rintro ⟨⟨g', d⟩, n⟩ hp
      obtain ⟨n', hn', -⟩ := h.nodes' g' d n (mem_nodesOf.mp hp)
      exact ⟨((g', d), n'), mem_nodesOf.mpr hn', rfl⟩
    · rintro ⟨⟨g', d⟩, n⟩ hp ⟨⟨g2, d2⟩, n'⟩ hq e'
      obtain ⟨rfl, rfl⟩ := Prod.mk.inj e'
      have hn := mem_nodesOf.mp hp
      have hn' := mem_nodesOf.mp hq
      exact hf g' d n n' hn hn' (h.rel hi' hn hn')
  rw [h1, sumN_add]
  obtain ⟨n, hn⟩ := h.nodeM
  obtain ⟨n', hn', -⟩ := h.nodes g m n hn
  rw [sumN_pick hi' hn' (f := fun g' d _ => if g' = g ∧ d = m then x else 0) (fun _ _ _ _ hne => if_neg hne)]
  simp

include h hi' in
theorem prods_mix {g' d : String} {n n' : InputNode} (hn : HasNode s g' d n)
    (hn' : HasNode s' g' d n') (F : Production → ℚ → ℚ) (t : ℕ) :
    sumI n.productions (fun x i => F x (D.prod g' d i t)) =
      sumI n'.productions (fun x i => F x (D.prod g' d i t)) + if g' = g ∧ d = m then F p (D.prod g m 0 t) else 0 := by
  have he := h.rel hi' hn hn'
  rw [he.productions]
  by_cases em : g' = g ∧ d = m
  · rw [if_pos em, if_pos em, sumI_onemore, (he.bare em).2.1]
    obtain ⟨rfl, rfl⟩ := em
    rfl
  · rw [if_neg em, if_neg em, List.append_nil, add_zero]

include h hi hi' in
theorem imports_mix (g' d : String) (t : ℕ) : imports s D g' d t = imports s' D g' d t := by
  rw [imports_sumN, imports_sumN]
  have := h.sumN hi hi' (f := fun g2 d2 n => if g2 = g' then sumI n.links fun x i => if x.dest = d then D.link g2 d2 i t else 0 else 0)
    (f' := fun g2 d2 n => if g2 = g' then sumI n.links fun x i => if x.dest = d then D.link g2 d2 i t else 0 else 0)
    (x := 0) (by
      intro g2 d2 n n' hn hn' he
      rw [he.links]
      simp)
  rw [this, add_zero]

include h in
theorem from_mix (g' d : String) (t : ℕ) : fromConverters s D g' d t = fromConverters s' D g' d t := by
  unfold fromConverters
  rw [h.with', h.without, sumL_append, sumL_append]
  simp only [sumL, List.map_cons, List.map_nil, h.gives.1, h.gives.2]

include h in
theorem to_mix (g' d : String) (t : ℕ) :
    toConverters s D g' d t = toConverters s' D g' d t + if g' = g ∧ d = m then D.convSrc a (g, m) t else 0 := by
  unfold toConverters
  rw [h.with', h.without, sumL_append, sumL_append, add_assoc]
  congr 1
  simp only [sumL, List.map_cons, List.map_nil, List.sum_cons, List.sum_nil, add_zero, h.takes, h.takes', List.map_append,
    List.sum_append]
  congr 1
  by_cases em : g' = g ∧ d = m
  · obtain ⟨rfl, rfl⟩ := em
    simp
  · have : ¬ [g, m] = [g', d] := by
      intro e'
      simp only [List.cons.injEq, and_true] at e'
      exact em ⟨e'.1.symm, e'.2.symm⟩
    rw [if_neg this, if_neg em]

include h hi hi' in
theorem balance_mix (hp : SameMix s.horizon k g m a r D) {g' d : String} {n n' : InputNode} (hn : HasNode s g' d n)
    (hn' : HasNode s' g' d n') {t : ℕ} (hh : t < s.horizon) :
    incoming s D g' d n t - outgoing s k D g' d n t = incoming s' D g' d n' t - outgoing s' k D g' d n' t := by
  have he := h.rel hi' hn hn'
  unfold incoming outgoing
  rw [imports_mix h hi hi', prods_mix h hi' hn hn' (fun _ x => x) t, from_mix h, to_mix h, he.storages, he.consumptions, he.links,
    (hp t hh).1]
  ring

include h hi' in
theorem self_mix {g' d : String} {n n' : InputNode} (hn : HasNode s g' d n)
    (hn' : HasNode s' g' d n') (t : ℕ) : selfFlow D g' d n t = selfFlow D g' d n' t := by
  unfold selfFlow
  rw [(h.rel hi' hn hn').links]

include h hi hi' in
theorem cost_mix (hp : SameMix s.horizon k g m a r D) : cost s k D = cost s' k D := by
  unfold cost
  rw [← h.horizon, h.with', h.without]
  apply sumL_congr
  intro t hh
  have hh : t < s.horizon := by simpa using hh
  have h1 := h.sumN hi hi' (f := fun g' d n => nodeCost k D g' d n t) (f' := fun g' d n => nodeCost k D g' d n t)
    (x := val p.cost k t * D.prod g m 0 t) (by
      intro g' d n n' hn hn' he
      simp only [nodeCost]
      rw [prods_mix h hi' hn hn' (fun x y => val x.cost k t * y) t, he.links, he.consumptions, he.storages]
      ring)
  unfold Hadar.sumN at h1
  obtain ⟨a1, a2⟩ := hp t hh
  have hr := (h.positive t hh).1.ne'
  rw [h1, sumL_append, sumL_append, a1]
  simp only [sumL, List.map_cons, List.map_nil, List.sum_cons, List.sum_nil, add_zero]
  rw [h.cost t hh, ← a2]
  field_simp
  ring

include h in
theorem mix_prods {n : InputNode} (hn : HasNode s g m n) : n.productions = [p] ∧ n.links = [] := by
  obtain ⟨n', hn', he⟩ := h.nodes g m n hn
  obtain ⟨-, b2, -, b4⟩ := he.bare ⟨rfl, rfl⟩
  have h1 := he.productions
  rw [if_pos ⟨rfl, rfl⟩, b2] at h1
  exact ⟨h1, he.links.trans b4⟩

include h in
theorem ratios_mix (hp : SameMix s.horizon k g m a r D) : RatiosOk s k D ↔ RatiosOk s' k D := by
  constructor
  · intro hD q hq g' d x hx t ht
    rw [h.without, List.mem_append, List.mem_singleton] at hq
    rcases hq with hq | rfl
    · exact hD q (by rw [h.with']; exact List.mem_append_left _ hq) g' d x hx t (h.horizon ▸ ht)
    · dsimp only at hx ⊢
      rw [h.takes'] at hx
      exact hD (a, A) (by rw [h.with']; simp) g' d x (by dsimp only; rw [h.takes]; exact List.mem_append_left _ hx) t (h.horizon ▸ ht)
  · intro hD q hq g' d x hx t ht
    rw [h.with', List.mem_append, List.mem_singleton] at hq
    rcases hq with hq | rfl
    · exact hD q (by rw [h.without]; exact List.mem_append_left _ hq) g' d x hx t (h.horizon ▸ ht)
    · dsimp only at hx ⊢
      rw [h.takes, List.mem_append, List.mem_singleton] at hx
      rcases hx with hx | hx
      · exact hD (a, A') (by rw [h.without]; simp) g' d x (by dsimp only; rw [h.takes']; exact hx) t (h.horizon ▸ ht)
      · simp only [Prod.mk.injEq, List.cons.injEq, and_true] at hx
        obtain ⟨⟨rfl, rfl⟩, rfl⟩ := hx
        exact (hp t ht).2

include h in
theorem bounds_mix (hp : SameMix s.horizon k g m a r D) (hq : RatiosOk s' k D) : Bounds s k D ↔ Bounds s' k D := by
  have ha : (a, A) ∈ s.converters := by rw [h.with']; simp
  have ha' : (a, A') ∈ s'.converters := by rw [h.without]; simp
  have hm : ∀ {q : String × Converter}, q ∈ kept → q ∈ s.converters ∧ q ∈ s'.converters := by
    intro q hq
    rw [h.with', h.without]
    exact ⟨List.mem_append_left _ hq, List.mem_append_left _ hq⟩
  constructor
  · intro hD
    have key : ∀ t < s.horizon, 0 ≤ D.convDest a t ∧ D.convDest a t ≤ fval A'.max k t := by
      intro t ht
      obtain ⟨a1, a2⟩ := hp t ht
      obtain ⟨o, ho⟩ := h.nodeM
      have b1 := hD.productions g m o ho 0 p (by rw [(mix_prods h ho).1]; rfl) t ht
      have b2 := hD.convDest (a, A) ha t ht
      dsimp only at b2
      rw [a1] at b1
      rw [h.max t ht]
      refine ⟨b2.1, le_min b2.2 ?_⟩
      rw [← a2]
      exact mul_le_mul_of_nonneg_right b1.2 (h.positive t ht).1.le
    refine ⟨?_, ?_, ?_, ?_, ?_, ?_⟩
    · intro g' d n' hn' i x hx t hh
      obtain ⟨n, hn, he⟩ := h.nodes' g' d n' hn'
      exact hD.consumptions g' d n hn i x (by rw [he.consumptions]; exact hx) t (h.horizon ▸ hh)
    · intro g' d n' hn' i x hx t hh
      obtain ⟨n, hn, he⟩ := h.nodes' g' d n' hn'
      exact hD.productions g' d n hn i x (by rw [he.productions]; exact getElem?_snoc_left hx) t (h.horizon ▸ hh)
    · intro g' d n' hn' i x hx t hh
      obtain ⟨n, hn, he⟩ := h.nodes' g' d n' hn'
      exact hD.storages g' d n hn i x (by rw [he.storages]; exact hx) t (h.horizon ▸ hh)
    · intro g' d n' hn' i x hx t hh
      obtain ⟨n, hn, he⟩ := h.nodes' g' d n' hn'
      exact hD.links g' d n hn i x (by rw [he.links]; exact hx) t (h.horizon ▸ hh)
    · intro q hq0 g' d x hr t hh
      have hh' : t < s.horizon := h.horizon ▸ hh
      have hq1 := hq0
      rw [h.without, List.mem_append, List.mem_singleton] at hq0
      rcases hq0 with hq0 | rfl
      · exact hD.convSrc q (hm hq0).1 g' d x hr t hh'
      · have e1 := hq _ hq1 g' d x hr t hh
        dsimp only at hr e1 ⊢
        rw [h.takes'] at hr
        have b := hD.convSrc (a, A) ha g' d x (by dsimp only; rw [h.takes]; exact List.mem_append_left _ hr) t hh'
        refine ⟨b.1, fun _ => ?_⟩
        rw [le_div_iff₀ ((h.positive t hh').2 _ hr), e1]
        exact (key t hh').2
    · intro q hq0 t hh
      have hh' : t < s.horizon := h.horizon ▸ hh
      rw [h.without, List.mem_append, List.mem_singleton] at hq0
      rcases hq0 with hq0 | rfl
      · exact hD.convDest q (hm hq0).1 t hh'
      · exact key t hh'
  · intro hD
    have key : ∀ t < s.horizon, 0 ≤ D.convDest a t ∧ D.convDest a t ≤ min (fval A.max k t) (val p.quantity k t * val r k t) := by
      intro t ht
      have b2 := hD.convDest (a, A') ha' t (h.horizon ▸ ht)
      dsimp only at b2
      rw [h.max t ht] at b2
      exact b2
    have hsrc : ∀ t < s.horizon, 0 ≤ D.convSrc a (g, m) t := by
      intro t hh
      have b := (key t hh).1
      rw [← (hp t hh).2] at b
      exact nonneg_of_mul_nonneg_left b (h.positive t hh).1
    refine ⟨?_, ?_, ?_, ?_, ?_, ?_⟩
    · intro g' d n hn i x hx t hh
      obtain ⟨n', hn', he⟩ := h.nodes g' d n hn
      exact hD.consumptions g' d n' hn' i x (by rw [← he.consumptions]; exact hx) t (h.horizon ▸ hh)
    · intro g' d n hn i x hx t hh
      obtain ⟨n', hn', he⟩ := h.nodes g' d n hn
      by_cases em : g' = g ∧ d = m
      · obtain ⟨rfl, rfl⟩ := em
        rw [(mix_prods h hn).1] at hx
        obtain ⟨rfl, rfl⟩ : i = 0 ∧ x = p := by
          cases i with
          | zero => exact ⟨rfl, by simpa using hx.symm⟩
          | succ i => simp at hx
        rw [(hp t hh).1]
        refine ⟨hsrc t hh, ?_⟩
        have b := (key t hh).2.trans (min_le_right _ _)
        rw [← (hp t hh).2] at b
        exact le_of_mul_le_mul_right b (h.positive t hh).1
      · rw [he.productions] at hx
        rcases getElem?_snoc hx with hx | ⟨e', -, -⟩
        · exact hD.productions g' d n' hn' i x hx t (h.horizon ▸ hh)
        · exact absurd e' em
    · intro g' d n hn i x hx t hh
      obtain ⟨n', hn', he⟩ := h.nodes g' d n hn
      exact hD.storages g' d n' hn' i x (by rw [← he.storages]; exact hx) t (h.horizon ▸ hh)
    · intro g' d n hn i x hx t hh
      obtain ⟨n', hn', he⟩ := h.nodes g' d n hn
      exact hD.links g' d n' hn' i x (by rw [← he.links]; exact hx) t (h.horizon ▸ hh)
    · intro q hq0 g' d x hr t hh
      rw [h.with', List.mem_append, List.mem_singleton] at hq0
      rcases hq0 with hq0 | rfl
      · exact hD.convSrc q (hm hq0).2 g' d x hr t (h.horizon ▸ hh)
      · dsimp only at hr ⊢
        rw [h.takes, List.mem_append, List.mem_singleton] at hr
        have kmax := (key t hh).2.trans (min_le_left _ _)
        rcases hr with hr | hr
        · have hr' : ([g', d], x) ∈ A'.srcRatios := by rw [h.takes']; exact hr
          have b := hD.convSrc (a, A') ha' g' d x hr' t (h.horizon ▸ hh)
          have e1 := hq _ ha' g' d x hr' t (h.horizon ▸ hh)
          dsimp only at b e1
          refine ⟨b.1, fun _ => ?_⟩
          rw [le_div_iff₀ ((h.positive t hh).2 _ hr), e1]
          exact kmax
        · simp only [Prod.mk.injEq, List.cons.injEq, and_true] at hr
          obtain ⟨⟨rfl, rfl⟩, rfl⟩ := hr
          refine ⟨hsrc t hh, fun _ => ?_⟩
          rw [le_div_iff₀ (h.positive t hh).1, (hp t hh).2]
          exact kmax
    · intro q hq0 t hh
      rw [h.with', List.mem_append, List.mem_singleton] at hq0
      rcases hq0 with hq0 | rfl
      · exact hD.convDest q (hm hq0).2 t (h.horizon ▸ hh)
      · exact ⟨(key t hh).1, (key t hh).2.trans (min_le_left _ _)⟩

include h hi hi' in
theorem code_mix (hp : SameMix s.horizon k g m a r D) : CodeFeasible s k D ↔ CodeFeasible s' k D := by
  constructor
  · intro hD
    have hq := (ratios_mix h hp).mp hD.ratios
    refine ⟨(bounds_mix h hp hq).mp hD.bounds, ?_, ?_, hq⟩
    · intro g' d n' hn' t hh
      obtain ⟨n, hn, he⟩ := h.nodes' g' d n' hn'
      have hh' : t < s.horizon := h.horizon ▸ hh
      have := hD.balance g' d n hn t hh'
      rw [self_mix h hi' hn hn'] at this
      linarith [balance_mix h hi hi' hp hn hn' hh']
    · intro g' d n' hn' x hx t hh
      obtain ⟨n, hn, he⟩ := h.nodes' g' d n' hn'
      exact hD.storages g' d n hn x (by rw [he.storages]; exact hx) t (h.horizon ▸ hh)
  · intro hD
    refine ⟨(bounds_mix h hp hD.ratios).mpr hD.bounds, ?_, ?_, (ratios_mix h hp).mpr hD.ratios⟩
    · intro g' d n hn t hh
      obtain ⟨n', hn', he⟩ := h.nodes g' d n hn
      rw [self_mix h hi' hn hn']
      linarith [hD.balance g' d n' hn' t (h.horizon ▸ hh), balance_mix h hi hi' hp hn hn' hh]
    · intro g' d n hn x hx t hh
      obtain ⟨n', hn', he⟩ := h.nodes g' d n hn
      exact hD.storages g' d n' hn' x (by rw [← he.storages]; exact hx) t (h.horizon ▸ hh)

include h hi hi' in
theorem feasible_mix (hp : SameMix s.horizon k g m a r D) : Spec.Feasible s k D ↔ Spec.Feasible s' k D := by
  constructor
  · intro hD
    have hq := (ratios_mix h hp).mp hD.ratios
    refine ⟨(bounds_mix h hp hq).mp hD.bounds, ?_, ?_, hq⟩
    · intro g' d n' hn' t hh
      obtain ⟨n, hn, he⟩ := h.nodes' g' d n' hn'
      have hh' : t < s.horizon := h.horizon ▸ hh
      have := hD.balanced g' d n hn t hh'
      linarith [balance_mix h hi hi' hp hn hn' hh']
    · intro g' d n' hn' i x hx t hh
      obtain ⟨n, hn, he⟩ := h.nodes' g' d n' hn'
      exact hD.storages g' d n hn i x (by rw [he.storages]; exact hx) t (h.horizon ▸ hh)
  · intro hD
    refine ⟨(bounds_mix h hp hD.ratios).mpr hD.bounds, ?_, ?_, (ratios_mix h hp).mpr hD.ratios⟩
    · intro g' d n hn t hh
      obtain ⟨n', hn', he⟩ := h.nodes g' d n hn
      linarith [hD.balanced g' d n' hn' t (h.horizon ▸ hh), balance_mix h hi hi' hp hn hn' hh]
    · intro g' d n hn i x hx t hh
      obtain ⟨n', hn', he⟩ := h.nodes g' d n hn
      exact hD.storages g' d n' hn' i x (by rw [← he.storages]; exact hx) t (h.horizon ▸ hh)

include h hi hi' in
/-- where energy is balanced at the node of the ingredient, the converter takes what is produced -/
theorem mix_balance {n : InputNode} (hn : HasNode s g m n) {t : ℕ}
    (hb : incoming s D g m n t = outgoing s k D g m n t) : D.prod g m 0 t = D.convSrc a (g, m) t := by
  obtain ⟨n', hn', he⟩ := h.nodes g m n hn
  obtain ⟨b1, b2, b3, b4⟩ := he.bare ⟨rfl, rfl⟩
  have i1 : imports s' D g m t = 0 := by
    have h0 : Hadar.sumN s' (fun _ _ _ => 0) = 0 := by simp [Hadar.sumN, sumL]
    rw [imports_sumN]
    refine (sumN_congr fun g' d x hx => ?_).trans h0
    by_cases e0 : g' = g
    · subst e0
      rw [if_pos rfl]
      refine (sumI_congr fun y i hy => ?_).trans (sumI_zero x.links)
      exact if_neg (h.unreached d x hx y (List.mem_of_getElem? hy))
    · exact if_neg e0
  have i2 : fromConverters s' D g m t = 0 := by
    unfold fromConverters
    apply sumL_eq_zero
    intro q hq
    rw [h.without, List.mem_append, List.mem_singleton] at hq
    rcases hq with hq | rfl
    · exact if_neg (h.unused q hq).1
    · dsimp only
      rw [h.gives.1, h.gives.2]
      exact if_neg h.notBack
  have o2 : toConverters s' D g m t = 0 := by
    unfold toConverters
    apply sumL_eq_zero
    intro q hq
    apply sumL_eq_zero
    intro x hx
    rw [h.without, List.mem_append, List.mem_singleton] at hq
    rcases hq with hq | rfl
    · exact if_neg ((h.unused q hq).2 x hx)
    · dsimp only at hx
      rw [h.takes'] at hx
      exact if_neg (h.others x hx)
  obtain ⟨q1, q2⟩ := mix_prods h hn
  unfold incoming outgoing at hb
  rw [imports_mix h hi hi', from_mix h, to_mix h, i1, i2, o2, q1, q2, he.consumptions, he.storages, b1, b3] at hb
  simpa [sumI] using hb

include h in
theorem mix_ratio (hD : RatiosOk s k D) : ∀ t < s.horizon, D.convSrc a (g, m) t * val r k t = D.convDest a t :=
  fun t ht => hD (a, A) (by rw [h.with']; simp) g m r (by simp [h.takes]) t ht

include h hi in
theorem ingredient_same (D : Dispatch) : SameFlows s' D (withIngredient k g m a r D) where
  lol _ _ _ _ _ _ _ _ := rfl
  prod g' d n' hn' i hlt t ht := by
    have : ¬ (g' = g ∧ d = m ∧ i = 0) := by
      rintro ⟨rfl, rfl, -⟩
      obtain ⟨n, hn, he⟩ := h.nodes' g' d n' hn'
      rw [(he.bare ⟨rfl, rfl⟩).2.1] at hlt
      simp at hlt
    simp [withIngredient, this]
  cap _ _ _ _ _ _ _ _ := rfl
  fin _ _ _ _ _ _ _ _ := rfl
  fout _ _ _ _ _ _ _ _ := rfl
  link _ _ _ _ _ _ _ _ := rfl
  convSrc q hq g' d hr t ht := by
    have : ¬ (q.1 = a ∧ (g', d) = (g, m)) := by
      rintro ⟨e1, e2⟩
      obtain ⟨rfl, rfl⟩ := Prod.mk.inj e2
      rw [h.without, List.mem_append, List.mem_singleton] at hq
      rcases hq with hq | rfl
      · exact h.names hi q hq e1
      · dsimp only at hr
        rw [h.takes'] at hr
        obtain ⟨x, hx, e3⟩ := List.mem_map.mp hr
        exact h.others x hx e3
    simp only [withIngredient]
    rw [if_neg this]
  convDest _ _ _ _ := rfl

include h in
theorem ingredient_mix (D : Dispatch) : SameMix s.horizon k g m a r (withIngredient k g m a r D) := by
  intro t ht
  have hr := (h.positive t ht).1.ne'
  simp [withIngredient, hr]

end

end Hadar
