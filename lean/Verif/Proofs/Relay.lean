import Verif.Spec.Relay
import Verif.Proofs.Extension

/-!
# A node that only passes on: lemmas
-/

namespace Hadar

open Spec

section

variable {s s' : Study} {k : ℕ} {g a m : String} {l₁ l₂ l : Link} {D : Dispatch}
  (h : Relayed s s' k g a m l₁ l₂ l) (hi : StudyInv s) (hi' : StudyInv s')

include h hi' in
theorem Spec.Relayed.rel {g' d : String} {n n' : InputNode} (hn : HasNode s g' d n)
    (hn' : HasNode s' g' d n') : RelayNode g a m l₁ l₂ l g' d n n' := by
  obtain ⟨x, hx, he⟩ := h.nodes g' d n hn
  obtain rfl := hasNode_unique hi' hx hn'
  exact he

include h hi hi' in
theorem Spec.Relayed.sumN {f f' : String → String → InputNode → ℚ} {x y : ℚ}
    (hf : ∀ g' d n n', HasNode s g' d n → HasNode s' g' d n' → RelayNode g a m l₁ l₂ l g' d n n' →
      f g' d n = f' g' d n' + (if g' = g ∧ d = a then x else 0) + if g' = g ∧ d = m then y else 0) :
    Hadar.sumN s f = Hadar.sumN s' f' + x + y := by
  have h1 : Hadar.sumN s f = Hadar.sumN s' fun g' d n' =>
      f' g' d n' + (if g' = g ∧ d = a then x else 0) + if g' = g ∧ d = m then y else 0 := by
    rw [sumN_nodesOf, sumN_nodesOf]
    apply sumL_keyed (nodup_nodesOf hi) (nodup_nodesOf hi')
    · rintro ⟨⟨g', d⟩, n⟩ hp
      obtain ⟨n', hn', -⟩ := h.nodes g' d n (mem_nodesOf.mp hp)
      exact ⟨((g', d), n'), mem_nodesOf.mpr hn', rfl⟩
    · rintro ⟨⟨g', d⟩, n⟩ hp
      obtain ⟨n', hn', -⟩ := h.nodes' g' d n (mem_nodesOf.mp hp)
      exact ⟨((g', d), n'), mem_nodesOf.mpr hn', rfl⟩
    · rintro ⟨⟨g', d⟩, n⟩ hp ⟨⟨g2, d2⟩, n'⟩ hq e
      obtain ⟨rfl, rfl⟩ := Prod.mk.inj e
      have hn := mem_nodesOf.mp hp
      have hn' := mem_nodesOf.mp hq
      exact hf g' d n n' hn hn' (h.rel hi' hn hn')
  rw [h1, sumN_add, sumN_add]
  obtain ⟨n, hn⟩ := h.nodeA
  obtain ⟨n', hn', -⟩ := h.nodes g a n hn
  obtain ⟨o, ho⟩ := h.nodeM
  obtain ⟨o', ho', -⟩ := h.nodes g m o ho
  rw [sumN_pick hi' hn' (f := fun g' d _ => if g' = g ∧ d = a then x else 0) (fun _ _ _ _ hne => if_neg hne),
    sumN_pick hi' ho' (f := fun g' d _ => if g' = g ∧ d = m then y else 0) (fun _ _ _ _ hne => if_neg hne)]
  simp

include h hi' in
theorem links_relay {g' d : String} {n n' : InputNode} (hn : HasNode s g' d n)
    (hn' : HasNode s' g' d n') (F : Link → ℚ → ℚ) (t : ℕ) :
    sumI n.links (fun x i => F x (D.link g' d i t)) =
      sumI n'.links (fun x i => F x (D.link g' d i t)) +
        (if g' = g ∧ d = a then F l₁ (D.link g a (straightAt s' g a) t) - F l (D.link g a (straightAt s' g a) t) else 0) +
        if g' = g ∧ d = m then F l₂ (D.link g m 0 t) else 0 := by
  have he := h.rel hi' hn hn'
  obtain ⟨kept, h1, h2⟩ := he.links
  by_cases e : g' = g ∧ d = a
  · have em : ¬ (g' = g ∧ d = m) := fun e' => h.apart (e.2.symm.trans e'.2)
    rw [if_pos e] at h1 h2
    rw [if_pos e, if_neg em]
    obtain ⟨rfl, rfl⟩ := e
    have hlast : straightAt s' g' d = kept.length := by rw [straightAt, inNode_eq hi' hn', h1]; simp
    rw [h1, h2, hlast]
    simp [sumI, List.zipIdx_append]
  · rw [if_neg e] at h1 h2
    rw [if_neg e]
    by_cases em : g' = g ∧ d = m
    · have hb := (he.bare em).2.2.2
      rw [if_pos em] at h2
      rw [if_pos em]
      obtain ⟨rfl, rfl⟩ := em
      rw [hb] at h1
      rw [List.append_nil] at h1
      subst h1
      rw [h2, hb]
      simp [sumI]
    · rw [if_neg em] at h2
      rw [if_neg em, h1, h2]
      ring

include h hi hi' in
theorem imports_relay (g' d : String) (t : ℕ) :
    imports s D g' d t = imports s' D g' d t +
      (if g = g' then (if l₁.dest = d then D.link g a (straightAt s' g a) t else 0) -
        (if l.dest = d then D.link g a (straightAt s' g a) t else 0) else 0) +
      if g = g' then (if l.dest = d then D.link g m 0 t else 0) else 0 := by
  rw [imports_sumN, imports_sumN]
  apply h.sumN hi hi'
  intro g2 d2 n n' hn hn' he
  by_cases e : g2 = g'
  · subst e
    rw [if_pos rfl, if_pos rfl, links_relay h hi' hn hn' (fun x y => if x.dest = d then y else 0) t, h.fromRelay]
    by_cases e1 : g2 = g
    · subst e1
      simp
    · have e2 : ∀ b, ¬ (g2 = g ∧ d2 = b) := fun _ e2 => e1 e2.1
      simp only [if_neg (e2 _)]
  · rw [if_neg e, if_neg e, zero_add]
    by_cases e1 : g2 = g
    · have : ¬ g = g' := fun e' => e (e1.trans e')
      simp [this]
    · have e2 : ∀ b, ¬ (g2 = g ∧ d2 = b) := fun _ e2 => e1 e2.1
      simp only [if_neg (e2 _), add_zero]

include h hi hi' in
theorem incoming_relay (hp : PassesOn s' g a m D) {g' d : String} {n n' : InputNode} (hn : HasNode s g' d n)
    (hn' : HasNode s' g' d n') {t : ℕ} (hh : t < s'.horizon) :
    incoming s D g' d n t = incoming s' D g' d n' t + if g' = g ∧ d = m then D.link g m 0 t else 0 := by
  have he := h.rel hi' hn hn'
  unfold incoming
  rw [imports_relay h hi hi', he.productions, he.storages, ← hp t hh, h.toRelay]
  have : fromConverters s D g' d t = fromConverters s' D g' d t := by unfold fromConverters; rw [h.converters]
  rw [this]
  by_cases e : g' = g
  · subst e
    by_cases e1 : d = m
    · subst e1
      simp only [if_true, and_self]
      ring
    · have e2 : ¬ m = d := fun e2 => e1 e2.symm
      simp only [if_true, if_neg e2, e1, and_false, if_false]
      ring
  · have e2 : ¬ g = g' := fun e2 => e e2.symm
    simp only [if_neg e2, e, false_and, if_false]
    ring

include h hi' in
theorem outgoing_relay {g' d : String} {n n' : InputNode} (hn : HasNode s g' d n)
    (hn' : HasNode s' g' d n') (t : ℕ) :
    outgoing s k D g' d n t = outgoing s' k D g' d n' t + if g' = g ∧ d = m then D.link g m 0 t else 0 := by
  have he := h.rel hi' hn hn'
  unfold outgoing
  have : toConverters s D g' d t = toConverters s' D g' d t := by unfold toConverters; rw [h.converters]
  rw [links_relay h hi' hn hn' (fun _ x => x) t, he.consumptions, he.storages, this]
  simp only [sub_self, ite_self]
  ring

include h hi' in
theorem self_relay (haway : l.dest ≠ a) {g' d : String} {n n' : InputNode} (hn : HasNode s g' d n)
    (hn' : HasNode s' g' d n') (t : ℕ) : selfFlow D g' d n t = selfFlow D g' d n' t := by
  have hm : l.dest ≠ m := by
    obtain ⟨x, hx⟩ := h.nodeA
    obtain ⟨x', hx', he⟩ := h.nodes g a x hx
    obtain ⟨kept, h1, -⟩ := he.links
    exact h.unreached a x' hx' l (by rw [h1]; simp)
  unfold selfFlow
  rw [links_relay h hi' hn hn' (fun x y => if x.dest = d then y else 0) t, h.toRelay, h.fromRelay]
  by_cases e : d = a
  · subst e
    simp [haway, h.apart, h.apart.symm]
  · by_cases e1 : d = m
    · subst e1
      simp [hm, e]
    · simp [e, e1]

include h hi hi' in
theorem cost_relay (hp : PassesOn s' g a m D) : cost s k D = cost s' k D := by
  unfold cost
  rw [h.horizon, h.converters]
  apply sumL_congr
  intro t hh
  have hh : t < s'.horizon := by simpa using hh
  have h1 := h.sumN hi hi' (f := fun g' d n => nodeCost k D g' d n t) (f' := fun g' d n => nodeCost k D g' d n t)
    (x := val l₁.cost k t * D.link g a (straightAt s' g a) t - val l.cost k t * D.link g a (straightAt s' g a) t)
    (y := val l₂.cost k t * D.link g m 0 t) (by
      intro g' d n n' hn hn' he
      simp only [nodeCost]
      rw [links_relay h hi' hn hn' (fun x y => val x.cost k t * y) t, he.consumptions, he.productions, he.storages]
      ring)
  unfold Hadar.sumN at h1
  rw [h1, hp t hh, h.cost t (h.horizon ▸ hh)]
  ring

include h hi' in
theorem bounds_relay (hp : PassesOn s' g a m D) : Bounds s k D ↔ Bounds s' k D := by
  constructor
  · intro hD
    refine ⟨?_, ?_, ?_, ?_, ?_, ?_⟩
    · intro g' d n' hn' i x hx t hh
      obtain ⟨n, hn, he⟩ := h.nodes' g' d n' hn'
      exact hD.consumptions g' d n hn i x (by rw [he.consumptions]; exact hx) t (h.horizon ▸ hh)
    · intro g' d n' hn' i x hx t hh
      obtain ⟨n, hn, he⟩ := h.nodes' g' d n' hn'
      exact hD.productions g' d n hn i x (by rw [he.productions]; exact hx) t (h.horizon ▸ hh)
    · intro g' d n' hn' i x hx t hh
      obtain ⟨n, hn, he⟩ := h.nodes' g' d n' hn'
      exact hD.storages g' d n hn i x (by rw [he.storages]; exact hx) t (h.horizon ▸ hh)
    · intro g' d n' hn' i x hx t hh
      obtain ⟨n, hn, he⟩ := h.nodes' g' d n' hn'
      obtain ⟨kept, h1, h2⟩ := he.links
      have hh' : t < s.horizon := h.horizon ▸ hh
      rw [h1] at hx
      by_cases hlt : i < kept.length
      · rw [List.getElem?_append_left hlt] at hx
        exact hD.links g' d n hn i x (by rw [h2, List.getElem?_append_left hlt]; exact hx) t hh'
      · rw [List.getElem?_append_right (by omega)] at hx
        split_ifs at hx with e
        · have hz : i - kept.length = 0 := by
            by_contra hne
            rw [List.getElem?_eq_none (by simp; omega)] at hx
            cases hx
          have hik : i = kept.length := by omega
          rw [hz] at hx
          simp only [List.getElem?_cons_zero, Option.some.injEq] at hx
          subst hx
          rw [if_pos e] at h1 h2
          obtain ⟨rfl, rfl⟩ := e
          have hlast : straightAt s' g' d = i := by rw [straightAt, inNode_eq hi' hn', h1, hik]; simp
          have b1 := hD.links g' d n hn i l₁ (by rw [h2, hik, List.getElem?_append_right (le_refl _)]; simp) t hh'
          obtain ⟨o, ho⟩ := h.nodeM
          obtain ⟨o', ho', hoe⟩ := h.nodes g' m o ho
          obtain ⟨kept', h3, h4⟩ := hoe.links
          have hb := (hoe.bare ⟨rfl, rfl⟩).2.2.2
          have ne : ¬ (g' = g' ∧ m = d) := fun e' => h.apart e'.2.symm
          rw [if_neg ne, List.append_nil, hb] at h3
          rw [if_neg ne, if_pos ⟨rfl, rfl⟩, ← h3] at h4
          have b2 := hD.links g' m o ho 0 l₂ (by rw [h4]; rfl) t hh'
          rw [hp t hh, hlast] at b2
          rw [h.quantity t hh']
          exact ⟨b1.1, le_min b1.2 b2.2⟩
        · simp at hx
    · intro q hq g' d r hr t hh
      exact hD.convSrc q (h.converters ▸ hq) g' d r hr t (h.horizon ▸ hh)
    · intro q hq t hh
      exact hD.convDest q (h.converters ▸ hq) t (h.horizon ▸ hh)
  · intro hD
    have hstraight : ∀ t < s'.horizon, 0 ≤ D.link g a (straightAt s' g a) t ∧
        D.link g a (straightAt s' g a) t ≤ val l.quantity k t := by
      intro t hh
      obtain ⟨x, hx⟩ := h.nodeA
      obtain ⟨x', hx', he⟩ := h.nodes g a x hx
      obtain ⟨kept, h1, -⟩ := he.links
      rw [if_pos ⟨rfl, rfl⟩] at h1
      refine hD.links g a x' hx' _ l ?_ t hh
      rw [straightAt, inNode_eq hi' hx', h1]
      simp
    refine ⟨?_, ?_, ?_, ?_, ?_, ?_⟩
    · intro g' d n hn i x hx t hh
      obtain ⟨n', hn', he⟩ := h.nodes g' d n hn
      exact hD.consumptions g' d n' hn' i x (by rw [← he.consumptions]; exact hx) t (h.horizon ▸ hh)
    · intro g' d n hn i x hx t hh
      obtain ⟨n', hn', he⟩ := h.nodes g' d n hn
      exact hD.productions g' d n' hn' i x (by rw [← he.productions]; exact hx) t (h.horizon ▸ hh)
    · intro g' d n hn i x hx t hh
      obtain ⟨n', hn', he⟩ := h.nodes g' d n hn
      exact hD.storages g' d n' hn' i x (by rw [← he.storages]; exact hx) t (h.horizon ▸ hh)
    · intro g' d n hn i x hx t hh
      obtain ⟨n', hn', he⟩ := h.nodes g' d n hn
      obtain ⟨kept, h1, h2⟩ := he.links
      have hh' : t < s'.horizon := h.horizon ▸ hh
      have hs := hstraight t hh'
      rw [h.quantity t hh] at hs
      rw [h2] at hx
      by_cases hlt : i < kept.length
      · rw [List.getElem?_append_left hlt] at hx
        exact hD.links g' d n' hn' i x (by rw [h1, List.getElem?_append_left hlt]; exact hx) t hh'
      · rw [List.getElem?_append_right (by omega)] at hx
        have hz : i - kept.length = 0 := by
          by_contra hne
          rw [List.getElem?_eq_none (by split_ifs <;> simp <;> omega)] at hx
          cases hx
        have hik : i = kept.length := by omega
        rw [hz] at hx
        split_ifs at hx with e e1
        · simp only [List.getElem?_cons_zero, Option.some.injEq] at hx
          subst hx
          rw [if_pos e] at h1
          obtain ⟨rfl, rfl⟩ := e
          have hlast : straightAt s' g' d = i := by rw [straightAt, inNode_eq hi' hn', h1, hik]; simp
          rw [hlast] at hs
          exact ⟨hs.1, hs.2.trans (min_le_left _ _)⟩
        · simp only [List.getElem?_cons_zero, Option.some.injEq] at hx
          subst hx
          have hb := (he.bare e1).2.2.2
          rw [if_neg e, List.append_nil, hb] at h1
          rw [← h1] at hik
          obtain ⟨rfl, rfl⟩ := e1
          rw [hik]
          simp only [List.length_nil]
          rw [hp t hh']
          exact ⟨hs.1, hs.2.trans (min_le_right _ _)⟩
        · simp at hx
    · intro q hq g' d r hr t hh
      exact hD.convSrc q (h.converters ▸ hq) g' d r hr t (h.horizon ▸ hh)
    · intro q hq t hh
      exact hD.convDest q (h.converters ▸ hq) t (h.horizon ▸ hh)

include h in
theorem ratios_relay : RatiosOk s k D ↔ RatiosOk s' k D := by
  unfold RatiosOk
  rw [h.horizon, h.converters]

include h hi hi' in
theorem code_relay (haway : l.dest ≠ a) (hp : PassesOn s' g a m D) : CodeFeasible s k D ↔ CodeFeasible s' k D := by
  constructor
  · intro hD
    refine ⟨(bounds_relay h hi' hp).mp hD.bounds, ?_, ?_, (ratios_relay h).mp hD.ratios⟩
    · intro g' d n' hn' t hh
      obtain ⟨n, hn, he⟩ := h.nodes' g' d n' hn'
      have := hD.balance g' d n hn t (h.horizon ▸ hh)
      rw [incoming_relay h hi hi' hp hn hn' hh, outgoing_relay h hi' hn hn', self_relay h hi' haway hn hn'] at this
      linarith
    · intro g' d n' hn' x hx t hh
      obtain ⟨n, hn, he⟩ := h.nodes' g' d n' hn'
      exact hD.storages g' d n hn x (by rw [he.storages]; exact hx) t (h.horizon ▸ hh)
  · intro hD
    refine ⟨(bounds_relay h hi' hp).mpr hD.bounds, ?_, ?_, (ratios_relay h).mpr hD.ratios⟩
    · intro g' d n hn t hh
      obtain ⟨n', hn', he⟩ := h.nodes g' d n hn
      have hh' : t < s'.horizon := h.horizon ▸ hh
      rw [incoming_relay h hi hi' hp hn hn' hh', outgoing_relay h hi' hn hn', self_relay h hi' haway hn hn']
      linarith [hD.balance g' d n' hn' t hh']
    · intro g' d n hn x hx t hh
      obtain ⟨n', hn', he⟩ := h.nodes g' d n hn
      exact hD.storages g' d n' hn' x (by rw [← he.storages]; exact hx) t (h.horizon ▸ hh)

include h hi hi' in
theorem feasible_relay (hp : PassesOn s' g a m D) : Spec.Feasible s k D ↔ Spec.Feasible s' k D := by
  constructor
  · intro hD
    refine ⟨(bounds_relay h hi' hp).mp hD.bounds, ?_, ?_, (ratios_relay h).mp hD.ratios⟩
    · intro g' d n' hn' t hh
      obtain ⟨n, hn, he⟩ := h.nodes' g' d n' hn'
      have := hD.balanced g' d n hn t (h.horizon ▸ hh)
      rw [incoming_relay h hi hi' hp hn hn' hh, outgoing_relay h hi' hn hn'] at this
      linarith
    · intro g' d n' hn' i x hx t hh
      obtain ⟨n, hn, he⟩ := h.nodes' g' d n' hn'
      exact hD.storages g' d n hn i x (by rw [he.storages]; exact hx) t (h.horizon ▸ hh)
  · intro hD
    refine ⟨(bounds_relay h hi' hp).mpr hD.bounds, ?_, ?_, (ratios_relay h).mpr hD.ratios⟩
    · intro g' d n hn t hh
      obtain ⟨n', hn', he⟩ := h.nodes g' d n hn
      have hh' : t < s'.horizon := h.horizon ▸ hh
      rw [incoming_relay h hi hi' hp hn hn' hh', outgoing_relay h hi' hn hn']
      linarith [hD.balanced g' d n' hn' t hh']
    · intro g' d n hn i x hx t hh
      obtain ⟨n', hn', he⟩ := h.nodes g' d n hn
      exact hD.storages g' d n' hn' i x (by rw [← he.storages]; exact hx) t (h.horizon ▸ hh)

include h hi hi' in
/-- where energy is balanced at the relay, it passes on what it gets -/
theorem relay_passes {n : InputNode} (hn : HasNode s g m n)
    (hb : ∀ t < s.horizon, incoming s D g m n t = outgoing s k D g m n t) : PassesOn s' g a m D := by
  intro t hh
  have hb := hb t (h.horizon ▸ hh)
  obtain ⟨n', hn', he⟩ := h.nodes g m n hn
  obtain ⟨b1, b2, b3, b4⟩ := he.bare ⟨rfl, rfl⟩
  have hm : l.dest ≠ m := by
    obtain ⟨x, hx⟩ := h.nodeA
    obtain ⟨x', hx', he⟩ := h.nodes g a x hx
    obtain ⟨kept, h1, -⟩ := he.links
    exact h.unreached a x' hx' l (by rw [h1]; simp)
  have i1 : imports s' D g m t = 0 := by
    have h0 : Hadar.sumN s' (fun _ _ _ => 0) = 0 := by simp [Hadar.sumN, sumL]
    rw [imports_sumN]
    refine (sumN_congr fun g' d x hx => ?_).trans h0
    by_cases e : g' = g
    · subst e
      rw [if_pos rfl]
      refine (sumI_congr fun y i hy => ?_).trans (sumI_zero x.links)
      exact if_neg (h.unreached d x hx y (List.mem_of_getElem? hy))
    · exact if_neg e
  have i2 : fromConverters s D g m t = 0 := by
    unfold fromConverters
    rw [h.converters]
    apply sumL_eq_zero
    intro q hq
    exact if_neg (h.unused q hq).1
  have o2 : toConverters s D g m t = 0 := by
    unfold toConverters
    rw [h.converters]
    apply sumL_eq_zero
    intro q hq
    apply sumL_eq_zero
    intro r hr
    exact if_neg ((h.unused q hq).2 r hr)
  have o1 := links_relay (D := D) h hi' hn hn' (fun _ x => x) t
  unfold incoming outgoing at hb
  rw [imports_relay h hi hi', i1, i2, o2, o1, he.consumptions, he.productions, he.storages, b1, b2, b3, b4, h.toRelay] at hb
  simp [sumI, hm] at hb
  exact hb.symm

include h hi hi' in
theorem relay_passes_code (haway : l.dest ≠ a) (hD : CodeFeasible s k D) : PassesOn s' g a m D := by
  obtain ⟨n, hn⟩ := h.nodeM
  refine relay_passes h hi hi' hn fun t ht => ?_
  have := hD.balance g m n hn t ht
  obtain ⟨n', hn', he⟩ := h.nodes g m n hn
  have hb := (he.bare ⟨rfl, rfl⟩).2.2.2
  rw [self_relay h hi' haway hn hn'] at this
  simpa [selfFlow, hb, sumI] using this

include h in
/-- the relay has no link of its own without the relay's part -/
theorem viaRelay_same (D : Dispatch) : SameFlows s' D (viaRelay s' g a m D) where
  lol _ _ _ _ _ _ _ _ := rfl
  prod _ _ _ _ _ _ _ _ := rfl
  cap _ _ _ _ _ _ _ _ := rfl
  fin _ _ _ _ _ _ _ _ := rfl
  fout _ _ _ _ _ _ _ _ := rfl
  link g' d n' hn' i hlt t ht := by
    have : ¬ (g' = g ∧ d = m ∧ i = 0) := by
      rintro ⟨rfl, rfl, -⟩
      obtain ⟨n, hn, he⟩ := h.nodes' g' d n' hn'
      rw [(he.bare ⟨rfl, rfl⟩).2.2.2] at hlt
      simp at hlt
    simp [viaRelay, this]
  convSrc _ _ _ _ _ _ _ := rfl
  convDest _ _ _ _ := rfl

include h in
theorem viaRelay_passes (D : Dispatch) : PassesOn s' g a m (viaRelay s' g a m D) := by
  intro t _
  have : ¬ a = m := h.apart
  simp [viaRelay, this]

end

end Hadar
