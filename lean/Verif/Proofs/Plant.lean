import Verif.Spec.Plant
import Verif.Proofs.Extension

/-!
# A production behind a link: lemmas
-/

namespace Hadar

open Spec

theorem sumI_onemore {α : Type} (l : List α) (a : α) (f : α → ℕ → ℚ) : sumI (l ++ [a]) f = sumI l f + f a l.length := by
  simp [sumI, List.zipIdx_append]

/-- an element of a list with perhaps one element more -/
theorem getElem?_snoc {α : Type} {l : List α} {c : Prop} [Decidable c] {a x : α} {i : ℕ} (h : (l ++ if c then [a] else [])[i]? = some x) :
    l[i]? = some x ∨ c ∧ i = l.length ∧ x = a := by
  by_cases hlt : i < l.length
  · rw [List.getElem?_append_left hlt] at h
    exact Or.inl h
  · rw [List.getElem?_append_right (by omega)] at h
    split_ifs at h with e
    · have hz : i - l.length = 0 := by
        by_contra hne
        rw [List.getElem?_eq_none (by simp; omega)] at h
        cases h
      rw [hz] at h
      simp only [List.getElem?_cons_zero, Option.some.injEq] at h
      exact Or.inr ⟨e, by omega, h.symm⟩
    · simp at h

theorem getElem?_snoc_left {α : Type} {l r : List α} {x : α} {i : ℕ} (h : l[i]? = some x) : (l ++ r)[i]? = some x := by
  rw [List.getElem?_append_left (List.getElem?_eq_some_iff.mp h).1]
  exact h

section

variable {s s' : Study} {k : ℕ} {g m : String} {p p' : Production} {l : Link} {D : Dispatch}
  (h : PlantMoved s s' k g m p l p') (hi : StudyInv s) (hi' : StudyInv s')

include h hi' in
theorem Spec.PlantMoved.rel {g' d : String} {n n' : InputNode} (hn : HasNode s g' d n)
    (hn' : HasNode s' g' d n') : PlantNode g m p l p' g' d n n' := by
  obtain ⟨x, hx, he⟩ := h.nodes g' d n hn
  obtain rfl := hasNode_unique hi' hx hn'
  exact he

include h hi hi' in
theorem Spec.PlantMoved.sumN {f f' : String → String → InputNode → ℚ} {x y : ℚ}
    (hf : ∀ g' d n n', HasNode s g' d n → HasNode s' g' d n' → PlantNode g m p l p' g' d n n' →
      f g' d n = f' g' d n' + (if g' = g ∧ d = m then x else 0) + if g' = g ∧ d = l.dest then y else 0) :
    Hadar.sumN s f = Hadar.sumN s' f' + x + y := by
  have h1 : Hadar.sumN s f = Hadar.sumN s' fun g' d n' =>
      f' g' d n' + (if g' = g ∧ d = m then x else 0) + if g' = g ∧ d = l.dest then y else 0 := by
    rw [sumN_nodesOf, sumN_nodesOf]
    apply sumL_keyed (nodup_nodesOf hi) (nodup_nodesOf hi')
    · rintro ⟨⟨g', d⟩, n⟩ hp
      obtain ⟨n', hn', -⟩ := h.nodes g' d n (mem_nodesOf.mp hp)
      exact ⟨((g', d), n'), mem_nodesOf.mpr hn', rfl⟩
    · rintro ⟨⟨g', d⟩, n⟩ hp
      obtain ⟨n', hn', -⟩ := h.nodes' g' d n (mem_nodesOf.mp hp)
      exact ⟨((g', d), n'), mem_nodesOf.mpr hn', rfl⟩
    · rintro ⟨⟨g', d⟩, n⟩ hp ⟨⟨g2, d2⟩, n'⟩ hq e
      obtain ⟨rfl, rfl⟩ := Prod.mk.inj e
      have hn := mem_nodesOf.mp hp
      have hn' := mem_nodesOf.mp hq
      exact hf g' d n n' hn hn' (h.rel hi' hn hn')
  rw [h1, sumN_add, sumN_add]
  obtain ⟨n, hn⟩ := h.nodeM
  obtain ⟨n', hn', -⟩ := h.nodes g m n hn
  obtain ⟨o, ho⟩ := h.nodeE
  obtain ⟨o', ho', -⟩ := h.nodes g l.dest o ho
  rw [sumN_pick hi' hn' (f := fun g' d _ => if g' = g ∧ d = m then x else 0) (fun _ _ _ _ hne => if_neg hne),
    sumN_pick hi' ho' (f := fun g' d _ => if g' = g ∧ d = l.dest then y else 0) (fun _ _ _ _ hne => if_neg hne)]
  simp

include h hi' in
theorem links_plant {g' d : String} {n n' : InputNode} (hn : HasNode s g' d n)
    (hn' : HasNode s' g' d n') (F : Link → ℚ → ℚ) (t : ℕ) :
    sumI n.links (fun x i => F x (D.link g' d i t)) =
      sumI n'.links (fun x i => F x (D.link g' d i t)) + if g' = g ∧ d = m then F l (D.link g m 0 t) else 0 := by
  have he := h.rel hi' hn hn'
  rw [he.links]
  by_cases e : g' = g ∧ d = m
  · rw [if_pos e, if_pos e, sumI_onemore, (he.bare e).2.2.2]
    obtain ⟨rfl, rfl⟩ := e
    rfl
  · rw [if_neg e, if_neg e, List.append_nil, add_zero]

include h hi' in
theorem prods_plant {g' d : String} {n n' : InputNode} (hn : HasNode s g' d n)
    (hn' : HasNode s' g' d n') (F : Production → ℚ → ℚ) (t : ℕ) :
    sumI n.productions (fun x i => F x (D.prod g' d i t)) =
      sumI n'.productions (fun x i => F x (D.prod g' d i t)) + (if g' = g ∧ d = m then F p (D.prod g m 0 t) else 0) +
        if g' = g ∧ d = l.dest then -F p' (D.prod g l.dest (plantAt s' g l.dest) t) else 0 := by
  have he := h.rel hi' hn hn'
  obtain ⟨kept, h1, h2⟩ := he.productions
  by_cases e : g' = g ∧ d = m
  · have ee : ¬ (g' = g ∧ d = l.dest) := fun e' => h.apart (e'.2.symm.trans e.2)
    have hb := (he.bare e).2.1
    rw [if_neg ee, List.append_nil, hb] at h2
    subst h2
    rw [if_pos e] at h1
    rw [if_pos e, if_neg ee, h1, hb]
    obtain ⟨rfl, rfl⟩ := e
    simp [sumI]
  · rw [if_neg e, List.append_nil] at h1
    rw [if_neg e]
    by_cases ee : g' = g ∧ d = l.dest
    · rw [if_pos ee] at h2
      rw [if_pos ee, h1, h2, sumI_onemore]
      obtain ⟨rfl, rfl⟩ := ee
      have hlast : plantAt s' g' l.dest = kept.length := by rw [plantAt, inNode_eq hi' hn', h2]; simp
      rw [hlast]
      ring
    · rw [if_neg ee, List.append_nil] at h2
      rw [if_neg ee, h1, h2]
      ring

include h hi hi' in
theorem imports_plant (g' d : String) (t : ℕ) :
    imports s D g' d t = imports s' D g' d t + if g = g' ∧ l.dest = d then D.link g m 0 t else 0 := by
  rw [imports_sumN, imports_sumN]
  have := h.sumN hi hi' (f := fun g2 d2 n => if g2 = g' then sumI n.links fun x i => if x.dest = d then D.link g2 d2 i t else 0 else 0)
    (f' := fun g2 d2 n => if g2 = g' then sumI n.links fun x i => if x.dest = d then D.link g2 d2 i t else 0 else 0)
    (x := if g = g' ∧ l.dest = d then D.link g m 0 t else 0) (y := 0) (by
      intro g2 d2 n n' hn hn' he
      by_cases e : g2 = g'
      · subst e
        rw [if_pos rfl, if_pos rfl, links_plant h hi' hn hn' (fun x y => if x.dest = d then y else 0) t]
        by_cases e1 : g2 = g
        · subst e1
          simp
        · have e2 : ∀ b, ¬ (g2 = g ∧ d2 = b) := fun _ e2 => e1 e2.1
          simp only [if_neg (e2 _), add_zero]
      · rw [if_neg e, if_neg e, zero_add, ite_self, add_zero]
        by_cases e1 : g2 = g
        · have : ¬ g = g' := fun e' => e (e1.trans e')
          simp [this]
        · have e2 : ∀ b, ¬ (g2 = g ∧ d2 = b) := fun _ e2 => e1 e2.1
          simp only [if_neg (e2 _)])
  rw [this, add_zero]

include h hi hi' in
theorem incoming_plant (hp : SameOutput s' g m l.dest D) {g' d : String} {n n' : InputNode} (hn : HasNode s g' d n)
    (hn' : HasNode s' g' d n') {t : ℕ} (hh : t < s'.horizon) :
    incoming s D g' d n t = incoming s' D g' d n' t + if g' = g ∧ d = m then D.link g m 0 t else 0 := by
  have he := h.rel hi' hn hn'
  unfold incoming
  have : fromConverters s D g' d t = fromConverters s' D g' d t := by unfold fromConverters; rw [h.converters]
  rw [imports_plant h hi hi', prods_plant h hi' hn hn' (fun _ x => x) t, he.storages, (hp t hh).1, (hp t hh).2, this]
  by_cases e : g' = g ∧ d = l.dest
  · have e2 : g = g' ∧ l.dest = d := ⟨e.1.symm, e.2.symm⟩
    rw [if_pos e, if_pos e2]
    ring
  · have e2 : ¬ (g = g' ∧ l.dest = d) := fun e2 => e ⟨e2.1.symm, e2.2.symm⟩
    rw [if_neg e, if_neg e2]
    ring

include h hi' in
theorem outgoing_plant {g' d : String} {n n' : InputNode} (hn : HasNode s g' d n)
    (hn' : HasNode s' g' d n') (t : ℕ) :
    outgoing s k D g' d n t = outgoing s' k D g' d n' t + if g' = g ∧ d = m then D.link g m 0 t else 0 := by
  have he := h.rel hi' hn hn'
  unfold outgoing
  have : toConverters s D g' d t = toConverters s' D g' d t := by unfold toConverters; rw [h.converters]
  rw [links_plant h hi' hn hn' (fun _ x => x) t, he.consumptions, he.storages, this]
  ring

include h hi' in
theorem self_plant {g' d : String} {n n' : InputNode} (hn : HasNode s g' d n)
    (hn' : HasNode s' g' d n') (t : ℕ) : selfFlow D g' d n t = selfFlow D g' d n' t := by
  unfold selfFlow
  rw [links_plant h hi' hn hn' (fun x y => if x.dest = d then y else 0) t]
  by_cases e1 : d = m
  · subst e1
    simp [h.apart]
  · simp [e1]

include h hi hi' in
theorem cost_plant (hp : SameOutput s' g m l.dest D) : cost s k D = cost s' k D := by
  unfold cost
  rw [h.horizon, h.converters]
  apply sumL_congr
  intro t hh
  have hh : t < s'.horizon := by simpa using hh
  have h1 := h.sumN hi hi' (f := fun g' d n => nodeCost k D g' d n t) (f' := fun g' d n => nodeCost k D g' d n t)
    (x := val p.cost k t * D.prod g m 0 t + val l.cost k t * D.link g m 0 t)
    (y := -(val p'.cost k t * D.prod g l.dest (plantAt s' g l.dest) t)) (by
      intro g' d n n' hn hn' he
      simp only [nodeCost]
      rw [links_plant h hi' hn hn' (fun x y => val x.cost k t * y) t, prods_plant h hi' hn hn' (fun x y => val x.cost k t * y) t,
        he.consumptions, he.storages]
      split_ifs <;> ring)
  unfold Hadar.sumN at h1
  rw [h1, (hp t hh).1, (hp t hh).2, h.cost t (h.horizon ▸ hh)]
  ring

include h in
theorem plant_links {n : InputNode} (hn : HasNode s g m n) : n.links = [l] ∧ n.productions = [p] := by
  obtain ⟨n', hn', he⟩ := h.nodes g m n hn
  obtain ⟨kept, h1, h2⟩ := he.productions
  obtain ⟨-, b2, -, b4⟩ := he.bare ⟨rfl, rfl⟩
  have ee : ¬ (g = g ∧ m = l.dest) := fun e' => h.apart e'.2.symm
  rw [if_neg ee, List.append_nil, b2] at h2
  subst h2
  have h3 := he.links
  rw [if_pos ⟨rfl, rfl⟩] at h1 h3
  rw [b4] at h3
  exact ⟨h3, h1⟩

include h hi' in
theorem bounds_plant (hp : SameOutput s' g m l.dest D) : Bounds s k D ↔ Bounds s' k D := by
  constructor
  · intro hD
    refine ⟨?_, ?_, ?_, ?_, ?_, ?_⟩
    · intro g' d n' hn' i x hx t hh
      obtain ⟨n, hn, he⟩ := h.nodes' g' d n' hn'
      exact hD.consumptions g' d n hn i x (by rw [he.consumptions]; exact hx) t (h.horizon ▸ hh)
    · intro g' d n' hn' i x hx t hh
      have hh' : t < s.horizon := h.horizon ▸ hh
      obtain ⟨n, hn, he⟩ := h.nodes' g' d n' hn'
      obtain ⟨kept, h1, h2⟩ := he.productions
      have hx0 := hx
      rw [h2] at hx
      rcases getElem?_snoc hx with hx | ⟨e, e1, rfl⟩
      · exact hD.productions g' d n hn i x (by rw [h1]; exact getElem?_snoc_left hx) t hh'
      · rw [if_pos e] at h2
        obtain ⟨rfl, rfl⟩ := e
        have hlast : plantAt s' g' l.dest = i := by rw [plantAt, inNode_eq hi' hn', h2, e1]; simp
        have hout := hp t hh
        rw [hlast] at hout
        obtain ⟨o, ho⟩ := h.nodeM
        obtain ⟨q1, q2⟩ := plant_links h ho
        have b1 := hD.productions g' m o ho 0 p (by rw [q2]; rfl) t hh'
        have b2 := hD.links g' m o ho 0 l (by rw [q1]; rfl) t hh'
        rw [hout.1] at b1
        rw [hout.2, h.quantity t hh']
        exact ⟨b1.1, le_min b1.2 b2.2⟩
    · intro g' d n' hn' i x hx t hh
      obtain ⟨n, hn, he⟩ := h.nodes' g' d n' hn'
      exact hD.storages g' d n hn i x (by rw [he.storages]; exact hx) t (h.horizon ▸ hh)
    · intro g' d n' hn' i x hx t hh
      obtain ⟨n, hn, he⟩ := h.nodes' g' d n' hn'
      exact hD.links g' d n hn i x (by rw [he.links]; exact getElem?_snoc_left hx) t (h.horizon ▸ hh)
    · intro q hq g' d r hr t hh
      exact hD.convSrc q (h.converters ▸ hq) g' d r hr t (h.horizon ▸ hh)
    · intro q hq t hh
      exact hD.convDest q (h.converters ▸ hq) t (h.horizon ▸ hh)
  · intro hD
    have hend : ∀ t < s'.horizon, 0 ≤ D.link g m 0 t ∧ D.link g m 0 t ≤ min (val p.quantity k t) (val l.quantity k t) := by
      intro t hh
      obtain ⟨x, hx⟩ := h.nodeE
      obtain ⟨x', hx', he⟩ := h.nodes g l.dest x hx
      obtain ⟨kept, -, h2⟩ := he.productions
      rw [if_pos ⟨rfl, rfl⟩] at h2
      rw [← (hp t hh).2, ← h.quantity t (h.horizon ▸ hh)]
      refine hD.productions g l.dest x' hx' _ p' ?_ t hh
      rw [plantAt, inNode_eq hi' hx', h2]
      simp
    refine ⟨?_, ?_, ?_, ?_, ?_, ?_⟩
    · intro g' d n hn i x hx t hh
      obtain ⟨n', hn', he⟩ := h.nodes g' d n hn
      exact hD.consumptions g' d n' hn' i x (by rw [← he.consumptions]; exact hx) t (h.horizon ▸ hh)
    · intro g' d n hn i x hx t hh
      have hh' : t < s'.horizon := h.horizon ▸ hh
      obtain ⟨n', hn', he⟩ := h.nodes g' d n hn
      obtain ⟨kept, h1, h2⟩ := he.productions
      by_cases e : g' = g ∧ d = m
      · obtain ⟨rfl, rfl⟩ := e
        rw [(plant_links h hn).2] at hx
        obtain ⟨rfl, rfl⟩ : i = 0 ∧ x = p := by
          cases i with
          | zero => exact ⟨rfl, by simpa using hx.symm⟩
          | succ i => simp at hx
        rw [(hp t hh').1]
        exact ⟨(hend t hh').1, (hend t hh').2.trans (min_le_left _ _)⟩
      · rw [h1] at hx
        rcases getElem?_snoc hx with hx | ⟨e', -, -⟩
        · exact hD.productions g' d n' hn' i x (by rw [h2]; exact getElem?_snoc_left hx) t hh'
        · exact absurd e' e
    · intro g' d n hn i x hx t hh
      obtain ⟨n', hn', he⟩ := h.nodes g' d n hn
      exact hD.storages g' d n' hn' i x (by rw [← he.storages]; exact hx) t (h.horizon ▸ hh)
    · intro g' d n hn i x hx t hh
      have hh' : t < s'.horizon := h.horizon ▸ hh
      obtain ⟨n', hn', he⟩ := h.nodes g' d n hn
      by_cases e : g' = g ∧ d = m
      · obtain ⟨rfl, rfl⟩ := e
        rw [(plant_links h hn).1] at hx
        obtain ⟨rfl, rfl⟩ : i = 0 ∧ x = l := by
          cases i with
          | zero => exact ⟨rfl, by simpa using hx.symm⟩
          | succ i => simp at hx
        exact ⟨(hend t hh').1, (hend t hh').2.trans (min_le_right _ _)⟩
      · rw [he.links] at hx
        rcases getElem?_snoc hx with hx | ⟨e', -, -⟩
        · exact hD.links g' d n' hn' i x hx t hh'
        · exact absurd e' e
    · intro q hq g' d r hr t hh
      exact hD.convSrc q (h.converters ▸ hq) g' d r hr t (h.horizon ▸ hh)
    · intro q hq t hh
      exact hD.convDest q (h.converters ▸ hq) t (h.horizon ▸ hh)

include h in
theorem ratios_plant : RatiosOk s k D ↔ RatiosOk s' k D := by
  unfold RatiosOk
  rw [h.horizon, h.converters]

include h hi hi' in
theorem code_plant (hp : SameOutput s' g m l.dest D) : CodeFeasible s k D ↔ CodeFeasible s' k D := by
  constructor
  · intro hD
    refine ⟨(bounds_plant h hi' hp).mp hD.bounds, ?_, ?_, (ratios_plant h).mp hD.ratios⟩
    · intro g' d n' hn' t hh
      obtain ⟨n, hn, he⟩ := h.nodes' g' d n' hn'
      have := hD.balance g' d n hn t (h.horizon ▸ hh)
      rw [incoming_plant h hi hi' hp hn hn' hh, outgoing_plant h hi' hn hn', self_plant h hi' hn hn'] at this
      linarith
    · intro g' d n' hn' x hx t hh
      obtain ⟨n, hn, he⟩ := h.nodes' g' d n' hn'
      exact hD.storages g' d n hn x (by rw [he.storages]; exact hx) t (h.horizon ▸ hh)
  · intro hD
    refine ⟨(bounds_plant h hi' hp).mpr hD.bounds, ?_, ?_, (ratios_plant h).mpr hD.ratios⟩
    · intro g' d n hn t hh
      obtain ⟨n', hn', he⟩ := h.nodes g' d n hn
      have hh' : t < s'.horizon := h.horizon ▸ hh
      rw [incoming_plant h hi hi' hp hn hn' hh', outgoing_plant h hi' hn hn', self_plant h hi' hn hn']
      linarith [hD.balance g' d n' hn' t hh']
    · intro g' d n hn x hx t hh
      obtain ⟨n', hn', he⟩ := h.nodes g' d n hn
      exact hD.storages g' d n' hn' x (by rw [← he.storages]; exact hx) t (h.horizon ▸ hh)

include h hi hi' in
theorem feasible_plant (hp : SameOutput s' g m l.dest D) : Spec.Feasible s k D ↔ Spec.Feasible s' k D := by
  constructor
  · intro hD
    refine ⟨(bounds_plant h hi' hp).mp hD.bounds, ?_, ?_, (ratios_plant h).mp hD.ratios⟩
    · intro g' d n' hn' t hh
      obtain ⟨n, hn, he⟩ := h.nodes' g' d n' hn'
      have := hD.balanced g' d n hn t (h.horizon ▸ hh)
      rw [incoming_plant h hi hi' hp hn hn' hh, outgoing_plant h hi' hn hn'] at this
      linarith
    · intro g' d n' hn' i x hx t hh
      obtain ⟨n, hn, he⟩ := h.nodes' g' d n' hn'
      exact hD.storages g' d n hn i x (by rw [he.storages]; exact hx) t (h.horizon ▸ hh)
  · intro hD
    refine ⟨(bounds_plant h hi' hp).mpr hD.bounds, ?_, ?_, (ratios_plant h).mpr hD.ratios⟩
    · intro g' d n hn t hh
      obtain ⟨n', hn', he⟩ := h.nodes g' d n hn
      have hh' : t < s'.horizon := h.horizon ▸ hh
      rw [incoming_plant h hi hi' hp hn hn' hh', outgoing_plant h hi' hn hn']
      linarith [hD.balanced g' d n' hn' t hh']
    · intro g' d n hn i x hx t hh
      obtain ⟨n', hn', he⟩ := h.nodes g' d n hn
      exact hD.storages g' d n' hn' i x (by rw [← he.storages]; exact hx) t (h.horizon ▸ hh)

include h hi hi' in
/-- where energy is balanced behind the link, what is produced goes through the link -/
theorem plant_balance {n : InputNode} (hn : HasNode s g m n) {t : ℕ}
    (hb : incoming s D g m n t = outgoing s k D g m n t) : D.prod g m 0 t = D.link g m 0 t := by
  obtain ⟨n', hn', he⟩ := h.nodes g m n hn
  obtain ⟨b1, b2, b3, b4⟩ := he.bare ⟨rfl, rfl⟩
  have i1 : imports s' D g m t = 0 := by
    have h0 : Hadar.sumN s' (fun _ _ _ => 0) = 0 := by simp [Hadar.sumN, sumL]
    rw [imports_sumN]
    refine (sumN_congr fun g' d x hx => ?_).trans h0
    by_cases e : g' = g
    · subst e
      rw [if_pos rfl]
      refine (sumI_congr fun y i hy => ?_).trans (sumI_zero x.links)
      exact if_neg (h.unreached d x hx y (List.mem_of_getElem? hy))
    · exact if_neg e
  have i2 : fromConverters s D g m t = 0 := by
    unfold fromConverters
    rw [h.converters]
    apply sumL_eq_zero
    intro q hq
    exact if_neg (h.unused q hq).1
  have o2 : toConverters s D g m t = 0 := by
    unfold toConverters
    rw [h.converters]
    apply sumL_eq_zero
    intro q hq
    apply sumL_eq_zero
    intro r hr
    exact if_neg ((h.unused q hq).2 r hr)
  obtain ⟨q1, q2⟩ := plant_links h hn
  unfold incoming outgoing at hb
  rw [imports_plant h hi hi', i1, i2, o2, q1, q2, he.consumptions, he.storages, b1, b3] at hb
  simpa [sumI, h.apart] using hb

include h in
theorem atEnd_same (hi : StudyInv s) (hi' : StudyInv s') (D : Dispatch) : SameFlows s D (atEnd s' g m l.dest D) where
  lol _ _ _ _ _ _ _ _ := rfl
  prod g' d n hn i hlt t ht := by
    have : ¬ (g' = g ∧ d = l.dest ∧ i = plantAt s' g l.dest) := by
      rintro ⟨rfl, rfl, rfl⟩
      obtain ⟨n', hn', he⟩ := h.nodes g' l.dest n hn
      obtain ⟨kept, h1, h2⟩ := he.productions
      have e : ¬ (g' = g' ∧ l.dest = m) := fun e => h.apart e.2
      rw [if_neg e, List.append_nil] at h1
      rw [if_pos ⟨rfl, rfl⟩] at h2
      rw [plantAt, inNode_eq hi' hn', h1, h2] at hlt
      simp at hlt
    simp [atEnd, this]
  cap _ _ _ _ _ _ _ _ := rfl
  fin _ _ _ _ _ _ _ _ := rfl
  fout _ _ _ _ _ _ _ _ := rfl
  link _ _ _ _ _ _ _ _ := rfl
  convSrc _ _ _ _ _ _ _ := rfl
  convDest _ _ _ _ := rfl

include h in
theorem behind_same (D : Dispatch) : SameFlows s' D (behind s' g m l.dest D) where
  lol _ _ _ _ _ _ _ _ := rfl
  prod g' d n' hn' i hlt t ht := by
    have : ¬ (g' = g ∧ d = m ∧ i = 0) := by
      rintro ⟨rfl, rfl, -⟩
      obtain ⟨n, hn, he⟩ := h.nodes' g' d n' hn'
      rw [(he.bare ⟨rfl, rfl⟩).2.1] at hlt
      simp at hlt
    simp [behind, this]
  cap _ _ _ _ _ _ _ _ := rfl
  fin _ _ _ _ _ _ _ _ := rfl
  fout _ _ _ _ _ _ _ _ := rfl
  link g' d n' hn' i hlt t ht := by
    have : ¬ (g' = g ∧ d = m ∧ i = 0) := by
      rintro ⟨rfl, rfl, -⟩
      obtain ⟨n, hn, he⟩ := h.nodes' g' d n' hn'
      rw [(he.bare ⟨rfl, rfl⟩).2.2.2] at hlt
      simp at hlt
    simp [behind, this]
  convSrc _ _ _ _ _ _ _ := rfl
  convDest _ _ _ _ := rfl

include h in
theorem behind_output (D : Dispatch) : SameOutput s' g m l.dest (behind s' g m l.dest D) := by
  intro t _
  have : ¬ l.dest = m := h.apart
  simp [behind, this]

include h in
theorem atEnd_output (hD : ∀ t < s'.horizon, D.prod g m 0 t = D.link g m 0 t) : SameOutput s' g m l.dest (atEnd s' g m l.dest D) := by
  intro t ht
  have : ¬ m = l.dest := fun e => h.apart e.symm
  simp [atEnd, this, hD t ht]

end

theorem feasible_congr_flows {s : Study} {k : ℕ} {D D' : Dispatch} (hs : SameFlows s D D') (hD : Spec.Feasible s k D) :
    Spec.Feasible s k D' := by
  refine ⟨Bounds.congr hs hD.bounds, ?_, ?_, RatiosOk.congr hs hD.ratios⟩
  · intro g' d n hn t ht
    rw [← incoming_congr hs hn ht, ← outgoing_congr hs hn ht]
    exact hD.balanced g' d n hn t ht
  · intro g' d n hn i x hx t ht
    exact Evolves.congr hs hn hx ht (hD.storages g' d n hn i x hx t ht)

end Hadar
