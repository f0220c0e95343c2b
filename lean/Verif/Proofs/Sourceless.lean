import Verif.Spec.Sourceless
import Verif.Proofs.Plant

/-!
# A converter without sources: lemmas
-/

namespace Hadar

open Spec

section

variable {s s' : Study} {k : ℕ} {g e a : String} {A : Converter} {p : Production} {D : Dispatch}
  (h : Sourceless s s' k g e a A p) (hi : StudyInv s) (hi' : StudyInv s')

include h hi' in
theorem Spec.Sourceless.rel {g' d : String} {n n' : InputNode} (hn : HasNode s g' d n)
    (hn' : HasNode s' g' d n') : SourcelessNode g e p g' d n n' := by
  obtain ⟨x, hx, he⟩ := h.nodes g' d n hn
  obtain rfl := hasNode_unique hi' hx hn'
  exact he

include h hi in
theorem Spec.Sourceless.names : ∀ q ∈ s'.converters, q.1 ≠ a := by
  have hnd := hi.names.converters
  rw [h.converters] at hnd
  simp only [List.map_append, List.map_cons, List.map_nil, List.nodup_append, List.mem_map, List.mem_cons, List.not_mem_nil, or_false] at hnd
  exact fun q hq => hnd.2.2 q.1 ⟨q, hq, rfl⟩ a rfl

include h hi hi' in
theorem Spec.Sourceless.sumN {f f' : String → String → InputNode → ℚ} {x : ℚ}
    (hf : ∀ g' d n n', HasNode s g' d n → HasNode s' g' d n' → SourcelessNode g e p g' d n n' →
      f g' d n = f' g' d n' + if g' = g ∧ d = e then x else 0) :
    Hadar.sumN s f = Hadar.sumN s' f' + x := by
  have h1 : Hadar.sumN s f = Hadar.sumN s' fun g' d n' => f' g' d n' + if g' = g ∧ d = e then x else 0 := by
    rw [sumN_nodesOf, sumN_nodesOf]
    apply sumL_keyed (nodup_nodesOf hi) (nodup_nodesOf hi')
    · rintro ⟨⟨g', d⟩, n⟩ hp
      obtain ⟨n', hn', -⟩ := h.nodes g' d n (mem_nodesOf.mp hp)
      exact ⟨((g', d), n'), mem_nodesOf.mpr hn', rfl⟩
    · rintro ⟨⟨g', d⟩, n⟩ hp
      obtain ⟨n', hn', -⟩ := h.nodes' g' d n (mem_nodesOf.mp hp)
      exact ⟨((g', d), n'), mem_nodesOf.mpr hn', rfl⟩
    · rintro ⟨⟨g', d⟩, n⟩ hp ⟨⟨g2, d2⟩, n'⟩ hq e'
      obtain ⟨rfl, rfl⟩ := Prod.mk.inj e'
      have hn := mem_nodesOf.mp hp
      have hn' := mem_nodesOf.mp hq
      exact hf g' d n n' hn hn' (h.rel hi' hn hn')
  rw [h1, sumN_add]
  obtain ⟨n, hn⟩ := h.nodeE
  obtain ⟨n', hn', -⟩ := h.nodes g e n hn
  rw [sumN_pick hi' hn' (f := fun g' d _ => if g' = g ∧ d = e then x else 0) (fun _ _ _ _ hne => if_neg hne)]
  simp

include h hi' in
theorem freeAt_eq {n n' : InputNode} (hn : HasNode s g e n) (hn' : HasNode s' g e n') : freeAt s' g e = n.productions.length := by
  rw [freeAt, inNode_eq hi' hn', (h.rel hi' hn hn').productions]
  simp

include h hi' in
theorem prods_free {g' d : String} {n n' : InputNode} (hn : HasNode s g' d n)
    (hn' : HasNode s' g' d n') (F : Production → ℚ → ℚ) (t : ℕ) :
    sumI n.productions (fun x i => F x (D.prod g' d i t)) =
      sumI n'.productions (fun x i => F x (D.prod g' d i t)) +
        if g' = g ∧ d = e then -F p (D.prod g e (freeAt s' g e) t) else 0 := by
  have he := h.rel hi' hn hn'
  rw [he.productions]
  by_cases ee : g' = g ∧ d = e
  · obtain ⟨rfl, rfl⟩ := ee
    rw [if_pos ⟨rfl, rfl⟩, if_pos ⟨rfl, rfl⟩, sumI_onemore, freeAt_eq h hi' hn hn']
    ring
  · rw [if_neg ee, if_neg ee, List.append_nil, add_zero]

include h hi hi' in
theorem imports_free (g' d : String) (t : ℕ) : imports s D g' d t = imports s' D g' d t := by
  rw [imports_sumN, imports_sumN]
  have := h.sumN hi hi' (f := fun g2 d2 n => if g2 = g' then sumI n.links fun x i => if x.dest = d then D.link g2 d2 i t else 0 else 0)
    (f' := fun g2 d2 n => if g2 = g' then sumI n.links fun x i => if x.dest = d then D.link g2 d2 i t else 0 else 0)
    (x := 0) (by
      intro g2 d2 n n' hn hn' he
      rw [he.links]
      simp)
  rw [this, add_zero]

include h in
theorem from_free (g' d : String) (t : ℕ) :
    fromConverters s D g' d t = fromConverters s' D g' d t + if g' = g ∧ d = e then D.convDest a t else 0 := by
  unfold fromConverters
  rw [h.converters, sumL_append]
  congr 1
  simp only [sumL, List.map_cons, List.map_nil, List.sum_cons, List.sum_nil, add_zero, h.gives.1, h.gives.2]
  have e' : (g = g' ∧ e = d) ↔ (g' = g ∧ d = e) := by constructor <;> (rintro ⟨rfl, rfl⟩; exact ⟨rfl, rfl⟩)
  simp only [e']

include h in
theorem to_free (g' d : String) (t : ℕ) : toConverters s D g' d t = toConverters s' D g' d t := by
  unfold toConverters
  rw [h.converters, sumL_append]
  simp [sumL, h.takes]

include h hi hi' in
theorem balance_free (hp : SameFree s' g e a D) {g' d : String} {n n' : InputNode} (hn : HasNode s g' d n)
    (hn' : HasNode s' g' d n') {t : ℕ} (hh : t < s'.horizon) :
    incoming s D g' d n t - outgoing s k D g' d n t = incoming s' D g' d n' t - outgoing s' k D g' d n' t := by
  have he := h.rel hi' hn hn'
  unfold incoming outgoing
  rw [imports_free h hi hi', prods_free h hi' hn hn' (fun _ x => x) t, from_free h, to_free h, he.storages, he.consumptions, he.links,
    hp t hh]
  split_ifs <;> ring

include h hi' in
theorem self_free {g' d : String} {n n' : InputNode} (hn : HasNode s g' d n)
    (hn' : HasNode s' g' d n') (t : ℕ) : selfFlow D g' d n t = selfFlow D g' d n' t := by
  unfold selfFlow
  rw [(h.rel hi' hn hn').links]

include h hi hi' in
theorem cost_free (hp : SameFree s' g e a D) : cost s k D = cost s' k D := by
  unfold cost
  rw [h.horizon, h.converters]
  apply sumL_congr
  intro t hh
  have hh : t < s'.horizon := by simpa using hh
  have hh' : t < s.horizon := h.horizon ▸ hh
  have h1 := h.sumN hi hi' (f := fun g' d n => nodeCost k D g' d n t) (f' := fun g' d n => nodeCost k D g' d n t)
    (x := -(val p.cost k t * D.prod g e (freeAt s' g e) t)) (by
      intro g' d n n' hn hn' he
      simp only [nodeCost]
      rw [prods_free h hi' hn hn' (fun x y => val x.cost k t * y) t, he.links, he.consumptions, he.storages]
      split_ifs <;> ring)
  unfold Hadar.sumN at h1
  rw [h1, sumL_append, hp t hh, h.cost t hh']
  simp only [sumL, List.map_cons, List.map_nil, List.sum_cons, List.sum_nil, add_zero]
  ring

include h hi' in
theorem bounds_free (hp : SameFree s' g e a D) : Bounds s k D ↔ Bounds s' k D := by
  have ha : (a, A) ∈ s.converters := by rw [h.converters]; simp
  have hm : ∀ {q : String × Converter}, q ∈ s'.converters → q ∈ s.converters := by
    intro q hq
    rw [h.converters]
    exact List.mem_append_left _ hq
  constructor
  · intro hD
    refine ⟨?_, ?_, ?_, ?_, ?_, ?_⟩
    · intro g' d n' hn' i x hx t hh
      obtain ⟨n, hn, he⟩ := h.nodes' g' d n' hn'
      exact hD.consumptions g' d n hn i x (by rw [he.consumptions]; exact hx) t (h.horizon ▸ hh)
    · intro g' d n' hn' i x hx t hh
      have hh' : t < s.horizon := h.horizon ▸ hh
      obtain ⟨n, hn, he⟩ := h.nodes' g' d n' hn'
      rw [he.productions] at hx
      rcases getElem?_snoc hx with hx | ⟨ee, e1, rfl⟩
      · exact hD.productions g' d n hn i x hx t hh'
      · obtain ⟨rfl, rfl⟩ := ee
        have hlast : freeAt s' g' d = i := (freeAt_eq h hi' hn hn').trans e1.symm
        have a3 := hp t hh
        rw [hlast] at a3
        rw [a3, h.quantity t hh']
        exact hD.convDest (a, A) ha t hh'
    · intro g' d n' hn' i x hx t hh
      obtain ⟨n, hn, he⟩ := h.nodes' g' d n' hn'
      exact hD.storages g' d n hn i x (by rw [he.storages]; exact hx) t (h.horizon ▸ hh)
    · intro g' d n' hn' i x hx t hh
      obtain ⟨n, hn, he⟩ := h.nodes' g' d n' hn'
      exact hD.links g' d n hn i x (by rw [he.links]; exact hx) t (h.horizon ▸ hh)
    · intro q hq g' d x hr t hh
      exact hD.convSrc q (hm hq) g' d x hr t (h.horizon ▸ hh)
    · intro q hq t hh
      exact hD.convDest q (hm hq) t (h.horizon ▸ hh)
  · intro hD
    refine ⟨?_, ?_, ?_, ?_, ?_, ?_⟩
    · intro g' d n hn i x hx t hh
      obtain ⟨n', hn', he⟩ := h.nodes g' d n hn
      exact hD.consumptions g' d n' hn' i x (by rw [← he.consumptions]; exact hx) t (h.horizon ▸ hh)
    · intro g' d n hn i x hx t hh
      obtain ⟨n', hn', he⟩ := h.nodes g' d n hn
      exact hD.productions g' d n' hn' i x (by rw [he.productions]; exact getElem?_snoc_left hx) t (h.horizon ▸ hh)
    · intro g' d n hn i x hx t hh
      obtain ⟨n', hn', he⟩ := h.nodes g' d n hn
      exact hD.storages g' d n' hn' i x (by rw [← he.storages]; exact hx) t (h.horizon ▸ hh)
    · intro g' d n hn i x hx t hh
      obtain ⟨n', hn', he⟩ := h.nodes g' d n hn
      exact hD.links g' d n' hn' i x (by rw [← he.links]; exact hx) t (h.horizon ▸ hh)
    · intro q hq g' d x hr t hh
      rw [h.converters, List.mem_append, List.mem_singleton] at hq
      rcases hq with hq | rfl
      · exact hD.convSrc q hq g' d x hr t (h.horizon ▸ hh)
      · simp [h.takes] at hr
    · intro q hq t hh
      have hh' : t < s'.horizon := h.horizon ▸ hh
      rw [h.converters, List.mem_append, List.mem_singleton] at hq
      rcases hq with hq | rfl
      · exact hD.convDest q hq t hh'
      · obtain ⟨n, hn⟩ := h.nodeE
        obtain ⟨n', hn', he⟩ := h.nodes g e n hn
        dsimp only
        rw [← hp t hh', ← h.quantity t hh]
        refine hD.productions g e n' hn' _ p ?_ t hh'
        rw [freeAt_eq h hi' hn hn', he.productions]
        simp

include h in
theorem ratios_free : RatiosOk s k D ↔ RatiosOk s' k D := by
  constructor
  · intro hD q hq g' d x hx t ht
    exact hD q (by rw [h.converters]; exact List.mem_append_left _ hq) g' d x hx t (h.horizon ▸ ht)
  · intro hD q hq g' d x hx t ht
    rw [h.converters, List.mem_append, List.mem_singleton] at hq
    rcases hq with hq | rfl
    · exact hD q hq g' d x hx t (h.horizon ▸ ht)
    · simp [h.takes] at hx

include h hi hi' in
theorem code_free (hp : SameFree s' g e a D) : CodeFeasible s k D ↔ CodeFeasible s' k D := by
  constructor
  · intro hD
    refine ⟨(bounds_free h hi' hp).mp hD.bounds, ?_, ?_, (ratios_free h).mp hD.ratios⟩
    · intro g' d n' hn' t hh
      obtain ⟨n, hn, he⟩ := h.nodes' g' d n' hn'
      have := hD.balance g' d n hn t (h.horizon ▸ hh)
      rw [self_free h hi' hn hn'] at this
      linarith [balance_free h hi hi' hp hn hn' hh]
    · intro g' d n' hn' x hx t hh
      obtain ⟨n, hn, he⟩ := h.nodes' g' d n' hn'
      exact hD.storages g' d n hn x (by rw [he.storages]; exact hx) t (h.horizon ▸ hh)
  · intro hD
    refine ⟨(bounds_free h hi' hp).mpr hD.bounds, ?_, ?_, (ratios_free h).mpr hD.ratios⟩
    · intro g' d n hn t hh
      obtain ⟨n', hn', he⟩ := h.nodes g' d n hn
      have hh' : t < s'.horizon := h.horizon ▸ hh
      rw [self_free h hi' hn hn']
      linarith [hD.balance g' d n' hn' t hh', balance_free h hi hi' hp hn hn' hh']
    · intro g' d n hn x hx t hh
      obtain ⟨n', hn', he⟩ := h.nodes g' d n hn
      exact hD.storages g' d n' hn' x (by rw [← he.storages]; exact hx) t (h.horizon ▸ hh)

include h hi hi' in
theorem feasible_free (hp : SameFree s' g e a D) : Spec.Feasible s k D ↔ Spec.Feasible s' k D := by
  constructor
  · intro hD
    refine ⟨(bounds_free h hi' hp).mp hD.bounds, ?_, ?_, (ratios_free h).mp hD.ratios⟩
    · intro g' d n' hn' t hh
      obtain ⟨n, hn, he⟩ := h.nodes' g' d n' hn'
      have := hD.balanced g' d n hn t (h.horizon ▸ hh)
      linarith [balance_free h hi hi' hp hn hn' hh]
    · intro g' d n' hn' i x hx t hh
      obtain ⟨n, hn, he⟩ := h.nodes' g' d n' hn'
      exact hD.storages g' d n hn i x (by rw [he.storages]; exact hx) t (h.horizon ▸ hh)
  · intro hD
    refine ⟨(bounds_free h hi' hp).mpr hD.bounds, ?_, ?_, (ratios_free h).mpr hD.ratios⟩
    · intro g' d n hn t hh
      obtain ⟨n', hn', he⟩ := h.nodes g' d n hn
      have hh' : t < s'.horizon := h.horizon ▸ hh
      linarith [hD.balanced g' d n' hn' t hh', balance_free h hi hi' hp hn hn' hh']
    · intro g' d n hn i x hx t hh
      obtain ⟨n', hn', he⟩ := h.nodes g' d n hn
      exact hD.storages g' d n' hn' i x (by rw [← he.storages]; exact hx) t (h.horizon ▸ hh)

include h hi' in
theorem produced_same (D : Dispatch) : SameFlows s D (asProduced s' g e a D) where
  lol _ _ _ _ _ _ _ _ := rfl
  prod g' d n hn i hlt t ht := by
    have : ¬ (g' = g ∧ d = e ∧ i = freeAt s' g e) := by
      rintro ⟨rfl, rfl, rfl⟩
      obtain ⟨n', hn', he⟩ := h.nodes g' d n hn
      rw [freeAt_eq h hi' hn hn'] at hlt
      exact lt_irrefl _ hlt
    simp [asProduced, this]
  cap _ _ _ _ _ _ _ _ := rfl
  fin _ _ _ _ _ _ _ _ := rfl
  fout _ _ _ _ _ _ _ _ := rfl
  link _ _ _ _ _ _ _ _ := rfl
  convSrc _ _ _ _ _ _ _ := rfl
  convDest _ _ _ _ := rfl

include h hi in
theorem given_same (D : Dispatch) : SameFlows s' D (asGiven s' g e a D) where
  lol _ _ _ _ _ _ _ _ := rfl
  prod _ _ _ _ _ _ _ _ := rfl
  cap _ _ _ _ _ _ _ _ := rfl
  fin _ _ _ _ _ _ _ _ := rfl
  fout _ _ _ _ _ _ _ _ := rfl
  link _ _ _ _ _ _ _ _ := rfl
  convSrc _ _ _ _ _ _ _ := rfl
  convDest q hq _ _ := by simp [asGiven, h.names hi q hq]

end

theorem given_free {s' : Study} {g e a : String} (D : Dispatch) : SameFree s' g e a (asGiven s' g e a D) := by
  intro t _
  simp [asGiven]

theorem produced_free {s' : Study} {g e a : String} (D : Dispatch) : SameFree s' g e a (asProduced s' g e a D) := by
  intro t _
  simp [asProduced]

end Hadar
