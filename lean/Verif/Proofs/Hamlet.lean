import Verif.Spec.Hamlet
import Verif.Proofs.Plant

/-!
# A load behind a link: lemmas
-/

namespace Hadar

open Spec

section

variable {s s' : Study} {k : ℕ} {g m e : String} {c c' : Consumption} {l : Link} {D : Dispatch}
  (h : HamletMoved s s' k g m e c l c') (hi : StudyInv s) (hi' : StudyInv s')

include h hi' in
theorem Spec.HamletMoved.rel {g' d : String} {n n' : InputNode} (hn : HasNode s g' d n)
    (hn' : HasNode s' g' d n') : HamletNode g m e c l c' g' d n n' := by
  obtain ⟨x, hx, he⟩ := h.nodes g' d n hn
  obtain rfl := hasNode_unique hi' hx hn'
  exact he

include h hi hi' in
theorem Spec.HamletMoved.sumN {f f' : String → String → InputNode → ℚ} {x y : ℚ}
    (hf : ∀ g' d n n', HasNode s g' d n → HasNode s' g' d n' → HamletNode g m e c l c' g' d n n' →
      f g' d n = f' g' d n' + (if g' = g ∧ d = m then x else 0) + if g' = g ∧ d = e then y else 0) :
    Hadar.sumN s f = Hadar.sumN s' f' + x + y := by
  have h1 : Hadar.sumN s f = Hadar.sumN s' fun g' d n' =>
      f' g' d n' + (if g' = g ∧ d = m then x else 0) + if g' = g ∧ d = e then y else 0 := by
    rw [sumN_nodesOf, sumN_nodesOf]
    apply sumL_keyed (nodup_nodesOf hi) (nodup_nodesOf hi')
    · rintro ⟨⟨g', d⟩, n⟩ hp
      obtain ⟨n', hn', -⟩ := h.nodes g' d n (mem_nodesOf.mp hp)
      exact ⟨((g', d), n'), mem_nodesOf.mpr hn', rfl⟩
    · rintro ⟨⟨g', d⟩, n⟩ hp
      obtain ⟨n', hn', -⟩ := h.nodes' g' d n (mem_nodesOf.mp hp)
      exact ⟨((g', d), n'), mem_nodesOf.mpr hn', rfl⟩
    · rintro ⟨⟨g', d⟩, n⟩ hp ⟨⟨g2, d2⟩, n'⟩ hq e'
      obtain ⟨rfl, rfl⟩ := Prod.mk.inj e'
      have hn := mem_nodesOf.mp hp
      have hn' := mem_nodesOf.mp hq
      exact hf g' d n n' hn hn' (h.rel hi' hn hn')
  rw [h1, sumN_add, sumN_add]
  obtain ⟨n, hn⟩ := h.nodeM
  obtain ⟨n', hn', -⟩ := h.nodes g m n hn
  obtain ⟨o, ho⟩ := h.nodeE
  obtain ⟨o', ho', -⟩ := h.nodes g e o ho
  rw [sumN_pick hi' hn' (f := fun g' d _ => if g' = g ∧ d = m then x else 0) (fun _ _ _ _ hne => if_neg hne),
    sumN_pick hi' ho' (f := fun g' d _ => if g' = g ∧ d = e then y else 0) (fun _ _ _ _ hne => if_neg hne)]
  simp

include h hi' in
theorem links_hamlet {g' d : String} {n n' : InputNode} (hn : HasNode s g' d n)
    (hn' : HasNode s' g' d n') (F : Link → ℚ → ℚ) (t : ℕ) :
    sumI n.links (fun x i => F x (D.link g' d i t)) =
      sumI n'.links (fun x i => F x (D.link g' d i t)) + if g' = g ∧ d = e then F l (D.link g e (roadAt s' g e) t) else 0 := by
  have he := h.rel hi' hn hn'
  rw [he.links]
  by_cases ee : g' = g ∧ d = e
  · rw [if_pos ee, if_pos ee, sumI_onemore]
    obtain ⟨rfl, rfl⟩ := ee
    rw [roadAt, inNode_eq hi' hn']
  · rw [if_neg ee, if_neg ee, List.append_nil, add_zero]

include h hi' in
theorem loads_hamlet {g' d : String} {n n' : InputNode} (hn : HasNode s g' d n)
    (hn' : HasNode s' g' d n') (F : Consumption → ℚ → ℚ) (t : ℕ) :
    sumI n.consumptions (fun x i => F x (D.lol g' d i t)) =
      sumI n'.consumptions (fun x i => F x (D.lol g' d i t)) + (if g' = g ∧ d = m then F c (D.lol g m 0 t) else 0) +
        if g' = g ∧ d = e then -F c' (D.lol g e (hamletAt s' g e) t) else 0 := by
  have he := h.rel hi' hn hn'
  obtain ⟨kept, h1, h2⟩ := he.consumptions
  by_cases em : g' = g ∧ d = m
  · have ee : ¬ (g' = g ∧ d = e) := fun e' => h.apart (e'.2.symm.trans em.2)
    have hb := (he.bare em).1
    rw [if_neg ee, List.append_nil, hb] at h2
    subst h2
    rw [if_pos em] at h1
    rw [if_pos em, if_neg ee, h1, hb]
    obtain ⟨rfl, rfl⟩ := em
    simp [sumI]
  · rw [if_neg em, List.append_nil] at h1
    rw [if_neg em]
    by_cases ee : g' = g ∧ d = e
    · rw [if_pos ee] at h2
      rw [if_pos ee, h1, h2, sumI_onemore]
      obtain ⟨rfl, rfl⟩ := ee
      have hlast : hamletAt s' g' d = kept.length := by rw [hamletAt, inNode_eq hi' hn', h2]; simp
      rw [hlast]
      ring
    · rw [if_neg ee, List.append_nil] at h2
      rw [if_neg ee, h1, h2]
      ring

include h hi hi' in
theorem imports_hamlet (g' d : String) (t : ℕ) :
    imports s D g' d t = imports s' D g' d t + if g = g' ∧ m = d then D.link g e (roadAt s' g e) t else 0 := by
  rw [imports_sumN, imports_sumN]
  have := h.sumN hi hi' (f := fun g2 d2 n => if g2 = g' then sumI n.links fun x i => if x.dest = d then D.link g2 d2 i t else 0 else 0)
    (f' := fun g2 d2 n => if g2 = g' then sumI n.links fun x i => if x.dest = d then D.link g2 d2 i t else 0 else 0)
    (x := 0) (y := if g = g' ∧ m = d then D.link g e (roadAt s' g e) t else 0) (by
      intro g2 d2 n n' hn hn' he
      by_cases e0 : g2 = g'
      · subst e0
        rw [if_pos rfl, if_pos rfl, links_hamlet h hi' hn hn' (fun x y => if x.dest = d then y else 0) t, h.goes]
        by_cases e1 : g2 = g
        · subst e1
          simp
        · have e2 : ∀ b, ¬ (g2 = g ∧ d2 = b) := fun _ e2 => e1 e2.1
          simp only [if_neg (e2 _), add_zero]
      · rw [if_neg e0, if_neg e0, zero_add, ite_self, zero_add]
        by_cases e1 : g2 = g
        · have : ¬ g = g' := fun e' => e0 (e1.trans e')
          simp [this]
        · have e2 : ∀ b, ¬ (g2 = g ∧ d2 = b) := fun _ e2 => e1 e2.1
          simp only [if_neg (e2 _)])
  rw [this, add_zero]

include h hi hi' in
theorem incoming_hamlet {g' d : String} {n n' : InputNode} (hn : HasNode s g' d n)
    (hn' : HasNode s' g' d n') (t : ℕ) :
    incoming s D g' d n t = incoming s' D g' d n' t + if g' = g ∧ d = m then D.link g e (roadAt s' g e) t else 0 := by
  have he := h.rel hi' hn hn'
  unfold incoming
  have : fromConverters s D g' d t = fromConverters s' D g' d t := by unfold fromConverters; rw [h.converters]
  rw [imports_hamlet h hi hi', he.productions, he.storages, this]
  by_cases em : g' = g ∧ d = m
  · have e2 : g = g' ∧ m = d := ⟨em.1.symm, em.2.symm⟩
    rw [if_pos em, if_pos e2]
    ring
  · have e2 : ¬ (g = g' ∧ m = d) := fun e2 => em ⟨e2.1.symm, e2.2.symm⟩
    rw [if_neg em, if_neg e2]
    ring

include h hi' in
theorem outgoing_hamlet (hp : SameServed s' k g m e c c' D) {g' d : String} {n n' : InputNode} (hn : HasNode s g' d n)
    (hn' : HasNode s' g' d n') {t : ℕ} (hh : t < s'.horizon) :
    outgoing s k D g' d n t = outgoing s' k D g' d n' t + if g' = g ∧ d = m then D.link g e (roadAt s' g e) t else 0 := by
  have he := h.rel hi' hn hn'
  unfold outgoing
  have : toConverters s D g' d t = toConverters s' D g' d t := by unfold toConverters; rw [h.converters]
  rw [links_hamlet h hi' hn hn' (fun _ x => x) t, loads_hamlet h hi' hn hn' (fun x y => val x.quantity k t - y) t, he.storages, this,
    (hp t hh).1, (hp t hh).2]
  split_ifs <;> ring

include h hi' in
theorem self_hamlet {g' d : String} {n n' : InputNode} (hn : HasNode s g' d n)
    (hn' : HasNode s' g' d n') (t : ℕ) : selfFlow D g' d n t = selfFlow D g' d n' t := by
  unfold selfFlow
  rw [links_hamlet h hi' hn hn' (fun x y => if x.dest = d then y else 0) t, h.goes]
  by_cases e1 : d = e
  · subst e1
    simp [h.apart.symm]
  · simp [e1]

include h hi hi' in
theorem cost_hamlet (hp : SameServed s' k g m e c c' D) : cost s k D = cost s' k D + hamletToll s.horizon k c l := by
  unfold cost hamletToll
  rw [h.horizon, h.converters, ← sumL_add]
  apply sumL_congr
  intro t hh
  have hh : t < s'.horizon := by simpa using hh
  have h1 := h.sumN hi hi' (f := fun g' d n => nodeCost k D g' d n t) (f' := fun g' d n => nodeCost k D g' d n t)
    (x := val c.cost k t * D.lol g m 0 t)
    (y := val l.cost k t * D.link g e (roadAt s' g e) t - val c'.cost k t * D.lol g e (hamletAt s' g e) t) (by
      intro g' d n n' hn hn' he
      simp only [nodeCost]
      rw [links_hamlet h hi' hn hn' (fun x y => val x.cost k t * y) t, loads_hamlet h hi' hn hn' (fun x y => val x.cost k t * y) t,
        he.productions, he.storages]
      split_ifs <;> ring)
  unfold Hadar.sumN at h1
  have a1 : D.lol g m 0 t = val c.quantity k t - D.link g e (roadAt s' g e) t := by linarith [(hp t hh).1]
  have a2 : D.lol g e (hamletAt s' g e) t = min (val c.quantity k t) (val l.quantity k t) - D.link g e (roadAt s' g e) t := by
    rw [← h.quantity t (h.horizon ▸ hh)]; linarith [(hp t hh).2]
  rw [h1, a1, a2, h.cost t (h.horizon ▸ hh)]
  ring

include h in
theorem hamlet_loads {n : InputNode} (hn : HasNode s g m n) : n.consumptions = [c] ∧ n.links = [] := by
  obtain ⟨n', hn', he⟩ := h.nodes g m n hn
  obtain ⟨kept, h1, h2⟩ := he.consumptions
  obtain ⟨b1, -, -, b4⟩ := he.bare ⟨rfl, rfl⟩
  have ee : ¬ (g = g ∧ m = e) := fun e' => h.apart e'.2.symm
  rw [if_neg ee, List.append_nil, b1] at h2
  subst h2
  have h3 := he.links
  rw [if_pos ⟨rfl, rfl⟩] at h1
  rw [if_neg ee, b4] at h3
  exact ⟨h1, h3⟩

include h hi' in
theorem bounds_hamlet (hp : SameServed s' k g m e c c' D) : Bounds s k D ↔ Bounds s' k D := by
  obtain ⟨o, ho⟩ := h.nodeE
  obtain ⟨o', ho', hoe⟩ := h.nodes g e o ho
  have holinks := hoe.links
  rw [if_pos ⟨rfl, rfl⟩] at holinks
  have hroad : roadAt s' g e = o'.links.length := by rw [roadAt, inNode_eq hi' ho']
  constructor
  · intro hD
    refine ⟨?_, ?_, ?_, ?_, ?_, ?_⟩
    · intro g' d n' hn' i x hx t hh
      have hh' : t < s.horizon := h.horizon ▸ hh
      obtain ⟨n, hn, he⟩ := h.nodes' g' d n' hn'
      obtain ⟨kept, h1, h2⟩ := he.consumptions
      rw [h2] at hx
      rcases getElem?_snoc hx with hx | ⟨ee, e1, rfl⟩
      · exact hD.consumptions g' d n hn i x (by rw [h1]; exact getElem?_snoc_left hx) t hh'
      · rw [if_pos ee] at h2
        obtain ⟨rfl, rfl⟩ := ee
        have hlast : hamletAt s' g' d = i := by rw [hamletAt, inNode_eq hi' hn', h2, e1]; simp
        have hout := hp t hh
        rw [hlast] at hout
        obtain ⟨u, hu⟩ := h.nodeM
        obtain ⟨q1, q2⟩ := hamlet_loads h hu
        have b1 := hD.consumptions g' m u hu 0 c (by rw [q1]; rfl) t hh'
        have b2 := hD.links g' d o ho (roadAt s' g' d) l (by rw [holinks, hroad]; simp) t hh'
        have b3 := h.quantity t hh'
        have b4 : D.link g' d (roadAt s' g' d) t ≤ min (val c.quantity k t) (val l.quantity k t) :=
          le_min (by linarith [hout.1, b1.1]) b2.2
        constructor
        · linarith [hout.2]
        · linarith [hout.2, b2.1]
    · intro g' d n' hn' i x hx t hh
      obtain ⟨n, hn, he⟩ := h.nodes' g' d n' hn'
      exact hD.productions g' d n hn i x (by rw [he.productions]; exact hx) t (h.horizon ▸ hh)
    · intro g' d n' hn' i x hx t hh
      obtain ⟨n, hn, he⟩ := h.nodes' g' d n' hn'
      exact hD.storages g' d n hn i x (by rw [he.storages]; exact hx) t (h.horizon ▸ hh)
    · intro g' d n' hn' i x hx t hh
      obtain ⟨n, hn, he⟩ := h.nodes' g' d n' hn'
      exact hD.links g' d n hn i x (by rw [he.links]; exact getElem?_snoc_left hx) t (h.horizon ▸ hh)
    · intro q hq g' d r hr t hh
      exact hD.convSrc q (h.converters ▸ hq) g' d r hr t (h.horizon ▸ hh)
    · intro q hq t hh
      exact hD.convDest q (h.converters ▸ hq) t (h.horizon ▸ hh)
  · intro hD
    have hend : ∀ t < s'.horizon, 0 ≤ D.link g e (roadAt s' g e) t ∧
        D.link g e (roadAt s' g e) t ≤ min (val c.quantity k t) (val l.quantity k t) := by
      intro t hh
      obtain ⟨kept, -, h2⟩ := hoe.consumptions
      rw [if_pos ⟨rfl, rfl⟩] at h2
      rw [← (hp t hh).2, ← h.quantity t (h.horizon ▸ hh)]
      have := hD.consumptions g e o' ho' (hamletAt s' g e) c' (by rw [hamletAt, inNode_eq hi' ho', h2]; simp) t hh
      exact ⟨by linarith [this.2], by linarith [this.1]⟩
    refine ⟨?_, ?_, ?_, ?_, ?_, ?_⟩
    · intro g' d n hn i x hx t hh
      have hh' : t < s'.horizon := h.horizon ▸ hh
      obtain ⟨n', hn', he⟩ := h.nodes g' d n hn
      obtain ⟨kept, h1, h2⟩ := he.consumptions
      by_cases em : g' = g ∧ d = m
      · obtain ⟨rfl, rfl⟩ := em
        rw [(hamlet_loads h hn).1] at hx
        obtain ⟨rfl, rfl⟩ : i = 0 ∧ x = c := by
          cases i with
          | zero => exact ⟨rfl, by simpa using hx.symm⟩
          | succ i => simp at hx
        have b1 := hend t hh'
        have b2 := (hp t hh').1
        have b3 := b1.2.trans (min_le_left _ _)
        exact ⟨by linarith, by linarith [b1.1]⟩
      · rw [h1] at hx
        rcases getElem?_snoc hx with hx | ⟨e', -, -⟩
        · exact hD.consumptions g' d n' hn' i x (by rw [h2]; exact getElem?_snoc_left hx) t hh'
        · exact absurd e' em
    · intro g' d n hn i x hx t hh
      obtain ⟨n', hn', he⟩ := h.nodes g' d n hn
      exact hD.productions g' d n' hn' i x (by rw [← he.productions]; exact hx) t (h.horizon ▸ hh)
    · intro g' d n hn i x hx t hh
      obtain ⟨n', hn', he⟩ := h.nodes g' d n hn
      exact hD.storages g' d n' hn' i x (by rw [← he.storages]; exact hx) t (h.horizon ▸ hh)
    · intro g' d n hn i x hx t hh
      have hh' : t < s'.horizon := h.horizon ▸ hh
      obtain ⟨n', hn', he⟩ := h.nodes g' d n hn
      rw [he.links] at hx
      rcases getElem?_snoc hx with hx | ⟨ee, e1, rfl⟩
      · exact hD.links g' d n' hn' i x hx t hh'
      · obtain ⟨rfl, rfl⟩ := ee
        obtain rfl := hasNode_unique hi' hn' ho'
        rw [e1, ← hroad]
        exact ⟨(hend t hh').1, (hend t hh').2.trans (min_le_right _ _)⟩
    · intro q hq g' d r hr t hh
      exact hD.convSrc q (h.converters ▸ hq) g' d r hr t (h.horizon ▸ hh)
    · intro q hq t hh
      exact hD.convDest q (h.converters ▸ hq) t (h.horizon ▸ hh)

include h in
theorem ratios_hamlet : RatiosOk s k D ↔ RatiosOk s' k D := by
  unfold RatiosOk
  rw [h.horizon, h.converters]

include h hi hi' in
theorem code_hamlet (hp : SameServed s' k g m e c c' D) : CodeFeasible s k D ↔ CodeFeasible s' k D := by
  constructor
  · intro hD
    refine ⟨(bounds_hamlet h hi' hp).mp hD.bounds, ?_, ?_, (ratios_hamlet h).mp hD.ratios⟩
    · intro g' d n' hn' t hh
      obtain ⟨n, hn, he⟩ := h.nodes' g' d n' hn'
      have := hD.balance g' d n hn t (h.horizon ▸ hh)
      rw [incoming_hamlet h hi hi' hn hn', outgoing_hamlet h hi' hp hn hn' hh, self_hamlet h hi' hn hn'] at this
      linarith
    · intro g' d n' hn' x hx t hh
      obtain ⟨n, hn, he⟩ := h.nodes' g' d n' hn'
      exact hD.storages g' d n hn x (by rw [he.storages]; exact hx) t (h.horizon ▸ hh)
  · intro hD
    refine ⟨(bounds_hamlet h hi' hp).mpr hD.bounds, ?_, ?_, (ratios_hamlet h).mpr hD.ratios⟩
    · intro g' d n hn t hh
      obtain ⟨n', hn', he⟩ := h.nodes g' d n hn
      have hh' : t < s'.horizon := h.horizon ▸ hh
      rw [incoming_hamlet h hi hi' hn hn', outgoing_hamlet h hi' hp hn hn' hh', self_hamlet h hi' hn hn']
      linarith [hD.balance g' d n' hn' t hh']
    · intro g' d n hn x hx t hh
      obtain ⟨n', hn', he⟩ := h.nodes g' d n hn
      exact hD.storages g' d n' hn' x (by rw [← he.storages]; exact hx) t (h.horizon ▸ hh)

include h hi hi' in
theorem feasible_hamlet (hp : SameServed s' k g m e c c' D) : Spec.Feasible s k D ↔ Spec.Feasible s' k D := by
  constructor
  · intro hD
    refine ⟨(bounds_hamlet h hi' hp).mp hD.bounds, ?_, ?_, (ratios_hamlet h).mp hD.ratios⟩
    · intro g' d n' hn' t hh
      obtain ⟨n, hn, he⟩ := h.nodes' g' d n' hn'
      have := hD.balanced g' d n hn t (h.horizon ▸ hh)
      rw [incoming_hamlet h hi hi' hn hn', outgoing_hamlet h hi' hp hn hn' hh] at this
      linarith
    · intro g' d n' hn' i x hx t hh
      obtain ⟨n, hn, he⟩ := h.nodes' g' d n' hn'
      exact hD.storages g' d n hn i x (by rw [he.storages]; exact hx) t (h.horizon ▸ hh)
  · intro hD
    refine ⟨(bounds_hamlet h hi' hp).mpr hD.bounds, ?_, ?_, (ratios_hamlet h).mpr hD.ratios⟩
    · intro g' d n hn t hh
      obtain ⟨n', hn', he⟩ := h.nodes g' d n hn
      have hh' : t < s'.horizon := h.horizon ▸ hh
      rw [incoming_hamlet h hi hi' hn hn', outgoing_hamlet h hi' hp hn hn' hh']
      linarith [hD.balanced g' d n' hn' t hh']
    · intro g' d n hn i x hx t hh
      obtain ⟨n', hn', he⟩ := h.nodes g' d n hn
      exact hD.storages g' d n' hn' i x (by rw [← he.storages]; exact hx) t (h.horizon ▸ hh)

include h hi hi' in
/-- where energy is balanced behind the link, what is served came through the link -/
theorem hamlet_balance {n : InputNode} (hn : HasNode s g m n) {t : ℕ}
    (hb : incoming s D g m n t = outgoing s k D g m n t) :
    val c.quantity k t - D.lol g m 0 t = D.link g e (roadAt s' g e) t := by
  obtain ⟨n', hn', he⟩ := h.nodes g m n hn
  obtain ⟨b1, b2, b3, b4⟩ := he.bare ⟨rfl, rfl⟩
  have i1 : imports s' D g m t = 0 := by
    have h0 : Hadar.sumN s' (fun _ _ _ => 0) = 0 := by simp [Hadar.sumN, sumL]
    rw [imports_sumN]
    refine (sumN_congr fun g' d x hx => ?_).trans h0
    by_cases e0 : g' = g
    · subst e0
      rw [if_pos rfl]
      refine (sumI_congr fun y i hy => ?_).trans (sumI_zero x.links)
      exact if_neg (h.unreached d x hx y (List.mem_of_getElem? hy))
    · exact if_neg e0
  have i2 : fromConverters s D g m t = 0 := by
    unfold fromConverters
    rw [h.converters]
    apply sumL_eq_zero
    intro q hq
    exact if_neg (h.unused q hq).1
  have o2 : toConverters s D g m t = 0 := by
    unfold toConverters
    rw [h.converters]
    apply sumL_eq_zero
    intro q hq
    apply sumL_eq_zero
    intro r hr
    exact if_neg ((h.unused q hq).2 r hr)
  obtain ⟨q1, q2⟩ := hamlet_loads h hn
  unfold incoming outgoing at hb
  rw [imports_hamlet h hi hi', i1, i2, o2, q1, q2, he.productions, he.storages, b2, b3] at hb
  simp [sumI] at hb
  exact hb.symm

include h in
theorem nearer_same (hi' : StudyInv s') (D : Dispatch) : SameFlows s D (nearer s' k g e c' D) where
  lol g' d n hn i hlt t ht := by
    have : ¬ (g' = g ∧ d = e ∧ i = hamletAt s' g e) := by
      rintro ⟨rfl, rfl, rfl⟩
      obtain ⟨n', hn', he⟩ := h.nodes g' d n hn
      obtain ⟨kept, h1, h2⟩ := he.consumptions
      have e0 : ¬ (g' = g' ∧ d = m) := fun e => h.apart e.2
      rw [if_neg e0, List.append_nil] at h1
      rw [if_pos ⟨rfl, rfl⟩] at h2
      rw [hamletAt, inNode_eq hi' hn', h1, h2] at hlt
      simp at hlt
    simp [nearer, this]
  prod _ _ _ _ _ _ _ _ := rfl
  cap _ _ _ _ _ _ _ _ := rfl
  fin _ _ _ _ _ _ _ _ := rfl
  fout _ _ _ _ _ _ _ _ := rfl
  link _ _ _ _ _ _ _ _ := rfl
  convSrc _ _ _ _ _ _ _ := rfl
  convDest _ _ _ _ := rfl

include h in
theorem farther_same (hi' : StudyInv s') (D : Dispatch) : SameFlows s' D (farther s' k g m e c c' D) where
  lol g' d n' hn' i hlt t ht := by
    have : ¬ (g' = g ∧ d = m ∧ i = 0) := by
      rintro ⟨rfl, rfl, -⟩
      obtain ⟨n, hn, he⟩ := h.nodes' g' d n' hn'
      rw [(he.bare ⟨rfl, rfl⟩).1] at hlt
      simp at hlt
    simp [farther, this]
  prod _ _ _ _ _ _ _ _ := rfl
  cap _ _ _ _ _ _ _ _ := rfl
  fin _ _ _ _ _ _ _ _ := rfl
  fout _ _ _ _ _ _ _ _ := rfl
  link g' d n' hn' i hlt t ht := by
    have : ¬ (g' = g ∧ d = e ∧ i = roadAt s' g e) := by
      rintro ⟨rfl, rfl, rfl⟩
      rw [roadAt, inNode_eq hi' hn'] at hlt
      simp at hlt
    simp [farther, this]
  convSrc _ _ _ _ _ _ _ := rfl
  convDest _ _ _ _ := rfl

include h in
theorem farther_served (D : Dispatch) : SameServed s' k g m e c c' (farther s' k g m e c c' D) := by
  intro t _
  have : ¬ e = m := h.apart
  simp [farther, this]

include h in
theorem nearer_served (hD : ∀ t < s'.horizon, val c.quantity k t - D.lol g m 0 t = D.link g e (roadAt s' g e) t) :
    SameServed s' k g m e c c' (nearer s' k g e c' D) := by
  intro t ht
  have : ¬ m = e := fun e' => h.apart e'.symm
  simp [nearer, this, hD t ht]

end

end Hadar
