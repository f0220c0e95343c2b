import Verif.Spec.Passage
import Verif.Proofs.Extension

/-!
# A link and the converter that does the same: lemmas
-/

namespace Hadar

open Spec

/-- dispatches that differ only by what goes through the link or through the converter -/
structure Through (s' : Study) (g a c : String) (D D' : Dispatch) : Prop where
  lol : D.lol = D'.lol
  prod : D.prod = D'.prod
  cap : D.cap = D'.cap
  fin : D.fin = D'.fin
  fout : D.fout = D'.fout
  link : ∀ g' d i t, ¬ (g' = g ∧ d = a ∧ i = lastLink s' g a) → D.link g' d i t = D'.link g' d i t
  convSrc : ∀ c', c' ≠ c → D.convSrc c' = D'.convSrc c'
  convDest : ∀ c', c' ≠ c → D.convDest c' = D'.convDest c'
  src : ∀ t < s'.horizon, D'.convSrc c (g, a) t = D.link g a (lastLink s' g a) t
  dest : ∀ t < s'.horizon, D'.convDest c t = D.link g a (lastLink s' g a) t

theorem through_asConverter (s' : Study) (g a c : String) (D : Dispatch) : Through s' g a c D (asConverter s' g a c D) where
  lol := rfl
  prod := rfl
  cap := rfl
  fin := rfl
  fout := rfl
  link _ _ _ _ _ := rfl
  convSrc c' hc := by funext q t; simp [asConverter, hc]
  convDest c' hc := by funext t; simp [asConverter, hc]
  src t _ := by simp [asConverter]
  dest t _ := by simp [asConverter]

section

variable {s s' : Study} {k : ℕ} {g a c : String} {l : Link} {p : Converter} {D D' : Dispatch}
  (h : Replaced s s' k g a l c p) (hi : StudyInv s) (hi' : StudyInv s')

include h in
theorem Spec.Replaced.mem : (c, p) ∈ s'.converters := by
  rw [h.converters]
  simp

include h hi' in
theorem Spec.Replaced.fresh {q : String × Converter} (hq : q ∈ s.converters) : q.1 ≠ c := by
  have := hi'.names.converters
  rw [h.converters, List.map_append, List.nodup_append] at this
  exact this.2.2 q.1 (List.mem_map.mpr ⟨q, hq, rfl⟩) c (by simp)

include h in
theorem through_asLink (hD : RatiosOk s' k D') : Through s' g a c (asLink s' g a c D') D' where
  lol := rfl
  prod := rfl
  cap := rfl
  fin := rfl
  fout := rfl
  link g' d i t hne := by simp [asLink, hne]
  convSrc _ _ := rfl
  convDest _ _ := rfl
  src t ht := by
    obtain ⟨r, hr, h1⟩ := h.does.sources
    have := hD _ h.mem g a r (by rw [hr]; simp) t ht
    rw [h1 t (h.horizon ▸ ht), mul_one] at this
    simp [asLink, this]
  dest t ht := by simp [asLink]

include h hi' in
theorem Spec.Replaced.sameBut (hi : StudyInv s) {g' d : String} {n n' : InputNode} (hn : HasNode s g' d n)
    (hn' : HasNode s' g' d n') : SameBut g a l g' d n n' := by
  obtain ⟨m, hm, he⟩ := h.nodes g' d n hn
  obtain rfl := hasNode_unique hi' hm hn'
  exact he

include h hi hi' in
theorem Spec.Replaced.sumN {f f' : String → String → InputNode → ℚ} {x : ℚ}
    (hf : ∀ g' d n n', HasNode s g' d n → HasNode s' g' d n' → SameBut g a l g' d n n' →
      f g' d n = f' g' d n' + if g' = g ∧ d = a then x else 0) :
    Hadar.sumN s f = Hadar.sumN s' f' + x := by
  have h1 : Hadar.sumN s f = Hadar.sumN s' fun g' d n' => f' g' d n' + if g' = g ∧ d = a then x else 0 := by
    rw [sumN_nodesOf, sumN_nodesOf]
    apply sumL_keyed (nodup_nodesOf hi) (nodup_nodesOf hi')
    · rintro ⟨⟨g', d⟩, n⟩ hp
      obtain ⟨n', hn', -⟩ := h.nodes g' d n (mem_nodesOf.mp hp)
      exact ⟨((g', d), n'), mem_nodesOf.mpr hn', rfl⟩
    · rintro ⟨⟨g', d⟩, n⟩ hp
      obtain ⟨n', hn', -⟩ := h.nodes' g' d n (mem_nodesOf.mp hp)
      exact ⟨((g', d), n'), mem_nodesOf.mpr hn', rfl⟩
    · rintro ⟨⟨g', d⟩, n⟩ hp ⟨⟨g2, d2⟩, n'⟩ hq e
      obtain ⟨rfl, rfl⟩ := Prod.mk.inj e
      have hn := mem_nodesOf.mp hp
      have hn' := mem_nodesOf.mp hq
      exact hf g' d n n' hn hn' (h.sameBut hi' hi hn hn')
  rw [h1, sumN_add]
  congr 1
  obtain ⟨n, hn⟩ := h.node
  obtain ⟨n', hn', -⟩ := h.nodes g a n hn
  rw [sumN_pick hi' hn' (f := fun g' d _ => if g' = g ∧ d = a then x else 0) (fun _ _ _ _ hne => if_neg hne)]
  simp

include h in
theorem Spec.Replaced.sumC (f : String × Converter → ℚ) : sumL s'.converters f = sumL s.converters f + f (c, p) := by
  rw [h.converters, sumL_append]
  simp [sumL]

include h hi hi' in
theorem links_through (ht : Through s' g a c D D') {g' d : String} {n n' : InputNode} (hn : HasNode s g' d n)
    (hn' : HasNode s' g' d n') (F : Link → ℚ → ℚ) (t : ℕ) :
    sumI n.links (fun m i => F m (D.link g' d i t)) =
      sumI n'.links (fun m i => F m (D'.link g' d i t)) +
        if g' = g ∧ d = a then F l (D.link g a (lastLink s' g a) t) else 0 := by
  have he := h.sameBut hi' hi hn hn'
  rw [he.links]
  by_cases e : g' = g ∧ d = a
  · obtain ⟨rfl, rfl⟩ := e
    have hlast : lastLink s' g' d = n'.links.length := by rw [lastLink, inNode_eq hi' hn']
    have h1 : sumI n'.links (fun m i => F m (D.link g' d i t)) = sumI n'.links (fun m i => F m (D'.link g' d i t)) := by
      apply sumI_congr
      intro m i hm
      rw [ht.link]
      rintro ⟨-, -, e⟩
      rw [e, hlast] at hm
      simp at hm
    simp only [and_self, if_true, hlast]
    rw [← h1]
    simp [sumI, List.zipIdx_append]
  · rw [if_neg e, if_neg e, List.append_nil, add_zero]
    apply sumI_congr
    intro m i _
    rw [ht.link]
    exact fun e' => e ⟨e'.1, e'.2.1⟩

include h hi hi' in
theorem imports_through (ht : Through s' g a c D D') (g' d : String) (t : ℕ) :
    imports s D g' d t = imports s' D' g' d t +
      if g = g' ∧ l.dest = d then D.link g a (lastLink s' g a) t else 0 := by
  rw [imports_sumN, imports_sumN]
  apply h.sumN hi hi'
  intro g2 d2 n n' hn hn' he
  by_cases e : g2 = g'
  · subst e
    rw [if_pos rfl, if_pos rfl, links_through h hi hi' ht hn hn' (fun m x => if m.dest = d then x else 0) t]
    congr 1
    by_cases e1 : g2 = g ∧ d2 = a
    · obtain ⟨rfl, rfl⟩ := e1
      simp
    · rw [if_neg e1, if_neg e1]
  · rw [if_neg e, if_neg e, zero_add]
    split_ifs with e1 e2
    · exact absurd (e1.1.trans e2.1) e
    · rfl
    · rfl

include h hi' in
theorem from_through (ht : Through s' g a c D D') (g' d : String) {t : ℕ} (hh : t < s'.horizon) :
    fromConverters s' D' g' d t = fromConverters s D g' d t +
      if g = g' ∧ l.dest = d then D.link g a (lastLink s' g a) t else 0 := by
  unfold fromConverters
  rw [h.sumC]
  congr 1
  · apply sumL_congr
    intro q hq
    rw [ht.convDest q.1 (h.fresh hi' hq)]
  · simp only [h.does.destNetwork, h.does.destNode, ht.dest t hh]

include h hi' in
theorem to_through (ht : Through s' g a c D D') (g' d : String) {t : ℕ} (hh : t < s'.horizon) :
    toConverters s' D' g' d t = toConverters s D g' d t +
      if g' = g ∧ d = a then D.link g a (lastLink s' g a) t else 0 := by
  unfold toConverters
  rw [h.sumC]
  congr 1
  · apply sumL_congr
    intro q hq
    rw [ht.convSrc q.1 (h.fresh hi' hq)]
  · obtain ⟨r, hr, -⟩ := h.does.sources
    simp only [hr, sumL, List.map_cons, List.map_nil, List.sum_cons, List.sum_nil, add_zero]
    by_cases e : g' = g ∧ d = a
    · obtain ⟨rfl, rfl⟩ := e
      simp [ht.src t hh]
    · rw [if_neg e, if_neg]
      intro e'
      simp only [List.cons.injEq, and_true] at e'
      exact e ⟨e'.1.symm, e'.2.symm⟩

include h hi hi' in
theorem incoming_through (ht : Through s' g a c D D') {g' d : String} {n n' : InputNode} (hn : HasNode s g' d n)
    (hn' : HasNode s' g' d n') {t : ℕ} (hh : t < s'.horizon) :
    incoming s D g' d n t = incoming s' D' g' d n' t := by
  have he := h.sameBut hi' hi hn hn'
  unfold incoming
  rw [imports_through h hi hi' ht, from_through h hi' ht g' d hh, he.productions, he.storages, ht.prod, ht.fout]
  ring

include h hi hi' in
theorem outgoing_through (ht : Through s' g a c D D') {g' d : String} {n n' : InputNode} (hn : HasNode s g' d n)
    (hn' : HasNode s' g' d n') {t : ℕ} (hh : t < s'.horizon) :
    outgoing s k D g' d n t = outgoing s' k D' g' d n' t := by
  have he := h.sameBut hi' hi hn hn'
  unfold outgoing
  rw [links_through h hi hi' ht hn hn' (fun _ x => x) t, to_through h hi' ht g' d hh, he.consumptions, he.storages, ht.lol, ht.fin]
  ring

include h hi hi' in
theorem self_through (haway : l.dest ≠ a) (ht : Through s' g a c D D') {g' d : String} {n n' : InputNode} (hn : HasNode s g' d n)
    (hn' : HasNode s' g' d n') (t : ℕ) : selfFlow D g' d n t = selfFlow D' g' d n' t := by
  unfold selfFlow
  rw [links_through h hi hi' ht hn hn' (fun m x => if m.dest = d then x else 0) t]
  split_ifs with e1 e2
  · exact absurd (e2.trans e1.2) haway
  · rw [add_zero]
  · rw [add_zero]

include h hi hi' in
theorem cost_through (ht : Through s' g a c D D') : cost s k D = cost s' k D' := by
  unfold cost
  rw [h.horizon]
  apply sumL_congr
  intro t hh
  have hh : t < s'.horizon := by simpa using hh
  have h1 := h.sumN hi hi' (f := fun g' d n => nodeCost k D g' d n t) (f' := fun g' d n => nodeCost k D' g' d n t)
    (x := val l.cost k t * D.link g a (lastLink s' g a) t) (by
      intro g' d n n' hn hn' he
      simp only [nodeCost]
      rw [links_through h hi hi' ht hn hn' (fun m x => val m.cost k t * x) t, he.consumptions, he.productions, he.storages,
        ht.lol, ht.prod, ht.cap]
      ring)
  have h2 := h.sumC fun q => fval q.2.cost k t * D'.convDest q.1 t
  have h3 : (sumL s.converters fun q => fval q.2.cost k t * D'.convDest q.1 t) =
      sumL s.converters fun q => fval q.2.cost k t * D.convDest q.1 t := by
    apply sumL_congr
    intro q hq
    rw [ht.convDest q.1 (h.fresh hi' hq)]
  unfold Hadar.sumN at h1
  rw [h1, h2, h3, h.does.cost t (h.horizon ▸ hh), ht.dest t hh]
  ring

include h hi hi' in
theorem bounds_through (ht : Through s' g a c D D') : Bounds s k D ↔ Bounds s' k D' := by
  constructor
  · intro hD
    refine ⟨?_, ?_, ?_, ?_, ?_, ?_⟩
    · intro g' d n' hn' i x hx t hh
      obtain ⟨n, hn, he⟩ := h.nodes' g' d n' hn'
      rw [← ht.lol]
      exact hD.consumptions g' d n hn i x (by rw [he.consumptions]; exact hx) t (h.horizon ▸ hh)
    · intro g' d n' hn' i x hx t hh
      obtain ⟨n, hn, he⟩ := h.nodes' g' d n' hn'
      rw [← ht.prod]
      exact hD.productions g' d n hn i x (by rw [he.productions]; exact hx) t (h.horizon ▸ hh)
    · intro g' d n' hn' i x hx t hh
      obtain ⟨n, hn, he⟩ := h.nodes' g' d n' hn'
      rw [← ht.cap, ← ht.fin, ← ht.fout]
      exact hD.storages g' d n hn i x (by rw [he.storages]; exact hx) t (h.horizon ▸ hh)
    · intro g' d n' hn' i x hx t hh
      obtain ⟨n, hn, he⟩ := h.nodes' g' d n' hn'
      have hlt : i < n'.links.length := (List.getElem?_eq_some_iff.mp hx).1
      rw [← ht.link]
      · exact hD.links g' d n hn i x (by rw [he.links, List.getElem?_append_left hlt]; exact hx) t (h.horizon ▸ hh)
      · rintro ⟨rfl, rfl, e⟩
        rw [lastLink, inNode_eq hi' hn'] at e
        omega
    · intro q hq g' d r hr t hh
      rw [h.converters, List.mem_append, List.mem_singleton] at hq
      rcases hq with hq | rfl
      · rw [← ht.convSrc q.1 (h.fresh hi' hq)]
        exact hD.convSrc q hq g' d r hr t (h.horizon ▸ hh)
      · obtain ⟨r', hr', h1⟩ := h.does.sources
        have hr : ([g', d], r) ∈ p.srcRatios := hr
        rw [hr', List.mem_singleton, Prod.mk.injEq] at hr
        obtain ⟨e1, rfl⟩ := hr
        simp only [List.cons.injEq, and_true] at e1
        obtain ⟨rfl, rfl⟩ := e1
        obtain ⟨n, hn⟩ := h.node
        obtain ⟨n', hn', he⟩ := h.nodes g' d n hn
        have := hD.links g' d n hn (lastLink s' g' d) l (by
          rw [he.links, lastLink, inNode_eq hi' hn', List.getElem?_append_right (le_refl _)]; simp) t (h.horizon ▸ hh)
        dsimp only
        rw [ht.src t hh, h1 t (h.horizon ▸ hh), h.does.max t (h.horizon ▸ hh), div_one]
        exact ⟨this.1, fun _ => this.2⟩
    · intro q hq t hh
      rw [h.converters, List.mem_append, List.mem_singleton] at hq
      rcases hq with hq | rfl
      · rw [← ht.convDest q.1 (h.fresh hi' hq)]
        exact hD.convDest q hq t (h.horizon ▸ hh)
      · obtain ⟨n, hn⟩ := h.node
        obtain ⟨n', hn', he⟩ := h.nodes g a n hn
        have := hD.links g a n hn (lastLink s' g a) l (by
          rw [he.links, lastLink, inNode_eq hi' hn', List.getElem?_append_right (le_refl _)]; simp) t (h.horizon ▸ hh)
        dsimp only
        rw [ht.dest t hh, h.does.max t (h.horizon ▸ hh)]
        exact this
  · intro hD
    refine ⟨?_, ?_, ?_, ?_, ?_, ?_⟩
    · intro g' d n hn i x hx t hh
      obtain ⟨n', hn', he⟩ := h.nodes g' d n hn
      rw [ht.lol]
      exact hD.consumptions g' d n' hn' i x (by rw [← he.consumptions]; exact hx) t (h.horizon ▸ hh)
    · intro g' d n hn i x hx t hh
      obtain ⟨n', hn', he⟩ := h.nodes g' d n hn
      rw [ht.prod]
      exact hD.productions g' d n' hn' i x (by rw [← he.productions]; exact hx) t (h.horizon ▸ hh)
    · intro g' d n hn i x hx t hh
      obtain ⟨n', hn', he⟩ := h.nodes g' d n hn
      rw [ht.cap, ht.fin, ht.fout]
      exact hD.storages g' d n' hn' i x (by rw [← he.storages]; exact hx) t (h.horizon ▸ hh)
    · intro g' d n hn i x hx t hh
      obtain ⟨n', hn', he⟩ := h.nodes g' d n hn
      have hh' : t < s'.horizon := h.horizon ▸ hh
      by_cases e : g' = g ∧ d = a ∧ i = lastLink s' g a
      · obtain ⟨rfl, rfl, rfl⟩ := e
        have := hD.convDest _ h.mem t hh'
        rw [he.links, lastLink, inNode_eq hi' hn', List.getElem?_append_right (le_refl _)] at hx
        simp only [and_self, if_true, Nat.sub_self, List.getElem?_cons_zero, Option.some.injEq] at hx
        subst hx
        dsimp only at this
        rw [ht.dest t hh', h.does.max t hh] at this
        exact this
      · rw [ht.link g' d i t e]
        refine hD.links g' d n' hn' i x ?_ t hh'
        rw [he.links] at hx
        by_cases hlt : i < n'.links.length
        · rwa [List.getElem?_append_left hlt] at hx
        · rw [List.getElem?_append_right (by omega)] at hx
          split_ifs at hx with e1
          · obtain ⟨rfl, rfl⟩ := e1
            have : i - n'.links.length = 0 := by
              by_contra hne
              rw [List.getElem?_eq_none (by simp; omega)] at hx
              cases hx
            exact absurd ⟨rfl, rfl, by rw [lastLink, inNode_eq hi' hn']; omega⟩ e
          · simp at hx
    · intro q hq g' d r hr t hh
      have := hD.convSrc q (by rw [h.converters]; exact List.mem_append_left _ hq) g' d r hr t (h.horizon ▸ hh)
      rwa [← ht.convSrc q.1 (h.fresh hi' hq)] at this
    · intro q hq t hh
      have := hD.convDest q (by rw [h.converters]; exact List.mem_append_left _ hq) t (h.horizon ▸ hh)
      rwa [← ht.convDest q.1 (h.fresh hi' hq)] at this

include h hi' in
theorem ratios_through (ht : Through s' g a c D D') : RatiosOk s k D ↔ RatiosOk s' k D' := by
  constructor
  · intro hD q hq g' d r hr t hh
    rw [h.converters, List.mem_append, List.mem_singleton] at hq
    rcases hq with hq | rfl
    · rw [← ht.convSrc q.1 (h.fresh hi' hq), ← ht.convDest q.1 (h.fresh hi' hq)]
      exact hD q hq g' d r hr t (h.horizon ▸ hh)
    · obtain ⟨r', hr', h1⟩ := h.does.sources
      have hr : ([g', d], r) ∈ p.srcRatios := hr
      rw [hr', List.mem_singleton, Prod.mk.injEq] at hr
      obtain ⟨e1, rfl⟩ := hr
      simp only [List.cons.injEq, and_true] at e1
      obtain ⟨rfl, rfl⟩ := e1
      dsimp only
      rw [ht.src t hh, ht.dest t hh, h1 t (h.horizon ▸ hh), mul_one]
  · intro hD q hq g' d r hr t hh
    have := hD q (by rw [h.converters]; exact List.mem_append_left _ hq) g' d r hr t (h.horizon ▸ hh)
    rwa [← ht.convSrc q.1 (h.fresh hi' hq), ← ht.convDest q.1 (h.fresh hi' hq)] at this

include h hi hi' in
theorem code_through (haway : l.dest ≠ a) (ht : Through s' g a c D D') : CodeFeasible s k D ↔ CodeFeasible s' k D' := by
  constructor
  · intro hD
    refine ⟨(bounds_through h hi hi' ht).mp hD.bounds, ?_, ?_, (ratios_through h hi' ht).mp hD.ratios⟩
    · intro g' d n' hn' t hh
      obtain ⟨n, hn, he⟩ := h.nodes' g' d n' hn'
      rw [← incoming_through h hi hi' ht hn hn' hh, ← outgoing_through h hi hi' ht hn hn' hh,
        ← self_through h hi hi' haway ht hn hn']
      exact hD.balance g' d n hn t (h.horizon ▸ hh)
    · intro g' d n' hn' x hx t hh
      obtain ⟨n, hn, he⟩ := h.nodes' g' d n' hn'
      have := hD.storages g' d n hn x (by rw [he.storages]; exact hx) t (h.horizon ▸ hh)
      cases t <;> simpa only [Evolves, levelBefore, ht.cap, ht.fin, ht.fout] using this
  · intro hD
    refine ⟨(bounds_through h hi hi' ht).mpr hD.bounds, ?_, ?_, (ratios_through h hi' ht).mpr hD.ratios⟩
    · intro g' d n hn t hh
      obtain ⟨n', hn', he⟩ := h.nodes g' d n hn
      have hh' : t < s'.horizon := h.horizon ▸ hh
      rw [incoming_through h hi hi' ht hn hn' hh', outgoing_through h hi hi' ht hn hn' hh',
        self_through h hi hi' haway ht hn hn']
      exact hD.balance g' d n' hn' t hh'
    · intro g' d n hn x hx t hh
      obtain ⟨n', hn', he⟩ := h.nodes g' d n hn
      have := hD.storages g' d n' hn' x (by rw [← he.storages]; exact hx) t (h.horizon ▸ hh)
      cases t <;> simpa only [Evolves, levelBefore, ht.cap, ht.fin, ht.fout] using this

include h hi hi' in
theorem feasible_through (ht : Through s' g a c D D') : Spec.Feasible s k D ↔ Spec.Feasible s' k D' := by
  constructor
  · intro hD
    refine ⟨(bounds_through h hi hi' ht).mp hD.bounds, ?_, ?_, (ratios_through h hi' ht).mp hD.ratios⟩
    · intro g' d n' hn' t hh
      obtain ⟨n, hn, he⟩ := h.nodes' g' d n' hn'
      rw [← incoming_through h hi hi' ht hn hn' hh, ← outgoing_through h hi hi' ht hn hn' hh]
      exact hD.balanced g' d n hn t (h.horizon ▸ hh)
    · intro g' d n' hn' i x hx t hh
      obtain ⟨n, hn, he⟩ := h.nodes' g' d n' hn'
      have := hD.storages g' d n hn i x (by rw [he.storages]; exact hx) t (h.horizon ▸ hh)
      cases t <;> simpa only [Evolves, levelBefore, ht.cap, ht.fin, ht.fout] using this
  · intro hD
    refine ⟨(bounds_through h hi hi' ht).mpr hD.bounds, ?_, ?_, (ratios_through h hi' ht).mpr hD.ratios⟩
    · intro g' d n hn t hh
      obtain ⟨n', hn', he⟩ := h.nodes g' d n hn
      have hh' : t < s'.horizon := h.horizon ▸ hh
      rw [incoming_through h hi hi' ht hn hn' hh', outgoing_through h hi hi' ht hn hn' hh']
      exact hD.balanced g' d n' hn' t hh'
    · intro g' d n hn i x hx t hh
      obtain ⟨n', hn', he⟩ := h.nodes g' d n hn
      have := hD.storages g' d n' hn' i x (by rw [← he.storages]; exact hx) t (h.horizon ▸ hh)
      cases t <;> simpa only [Evolves, levelBefore, ht.cap, ht.fin, ht.fout] using this

end

end Hadar
