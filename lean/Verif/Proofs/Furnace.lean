import Verif.Spec.Furnace
import Verif.Proofs.Plant

/-!
# A production behind a converter: lemmas
-/

namespace Hadar

open Spec

section

variable {s s' : Study} {k : ℕ} {g m g₂ e a : String} {A : Converter} {r : NumVal} {p p' : Production} {D : Dispatch}
  (h : Burnt s s' k g m g₂ e a A r p p') (hi : StudyInv s) (hi' : StudyInv s')

include h hi' in
theorem Spec.Burnt.rel {g' d : String} {n n' : InputNode} (hn : HasNode s g' d n)
    (hn' : HasNode s' g' d n') : FuelNode g m g₂ e p p' g' d n n' := by
  obtain ⟨x, hx, he⟩ := h.nodes g' d n hn
  obtain rfl := hasNode_unique hi' hx hn'
  exact he

include h hi in
theorem Spec.Burnt.names : ∀ q ∈ s'.converters, q.1 ≠ a := by
  have hnd := hi.names.converters
  rw [h.converters] at hnd
  simp only [List.map_append, List.map_cons, List.map_nil, List.nodup_append, List.mem_map, List.mem_cons, List.not_mem_nil, or_false] at hnd
  exact fun q hq => hnd.2.2 q.1 ⟨q, hq, rfl⟩ a rfl

include h hi hi' in
theorem Spec.Burnt.sumN {f f' : String → String → InputNode → ℚ} {x y : ℚ}
    (hf : ∀ g' d n n', HasNode s g' d n → HasNode s' g' d n' → FuelNode g m g₂ e p p' g' d n n' →
      f g' d n = f' g' d n' + (if g' = g ∧ d = m then x else 0) + if g' = g₂ ∧ d = e then y else 0) :
    Hadar.sumN s f = Hadar.sumN s' f' + x + y := by
  have h1 : Hadar.sumN s f = Hadar.sumN s' fun g' d n' =>
      f' g' d n' + (if g' = g ∧ d = m then x else 0) + if g' = g₂ ∧ d = e then y else 0 := by
    rw [sumN_nodesOf, sumN_nodesOf]
    apply sumL_keyed (nodup_nodesOf hi) (nodup_nodesOf hi')
    · rintro ⟨⟨g', d⟩, n⟩ hp
      obtain ⟨n', hn', -⟩ := h.nodes g' d n (mem_nodesOf.mp hp)
      exact ⟨((g', d), n'), mem_nodesOf.mpr hn', rfl⟩
    · rintro ⟨⟨g', d⟩, n⟩ hp
      obtain ⟨n', hn', -⟩ := h.nodes' g' d n (mem_nodesOf.mp hp)
      exact ⟨((g', d), n'), mem_nodesOf.mpr hn', rfl⟩
    · rintro ⟨⟨g', d⟩, n⟩ hp ⟨⟨g2, d2⟩, n'⟩ hq e'
      obtain ⟨rfl, rfl⟩ := Prod.mk.inj e'
      have hn := mem_nodesOf.mp hp
      have hn' := mem_nodesOf.mp hq
      exact hf g' d n n' hn hn' (h.rel hi' hn hn')
  rw [h1, sumN_add, sumN_add]
  obtain ⟨n, hn⟩ := h.nodeM
  obtain ⟨n', hn', -⟩ := h.nodes g m n hn
  obtain ⟨o, ho⟩ := h.nodeE
  obtain ⟨o', ho', -⟩ := h.nodes g₂ e o ho
  rw [sumN_pick hi' hn' (f := fun g' d _ => if g' = g ∧ d = m then x else 0) (fun _ _ _ _ hne => if_neg hne),
    sumN_pick hi' ho' (f := fun g' d _ => if g' = g₂ ∧ d = e then y else 0) (fun _ _ _ _ hne => if_neg hne)]
  simp

include h hi' in
theorem prods_fuel {g' d : String} {n n' : InputNode} (hn : HasNode s g' d n)
    (hn' : HasNode s' g' d n') (F : Production → ℚ → ℚ) (t : ℕ) :
    sumI n.productions (fun x i => F x (D.prod g' d i t)) =
      sumI n'.productions (fun x i => F x (D.prod g' d i t)) + (if g' = g ∧ d = m then F p (D.prod g m 0 t) else 0) +
        if g' = g₂ ∧ d = e then -F p' (D.prod g₂ e (powerAt s' g₂ e) t) else 0 := by
  have he := h.rel hi' hn hn'
  obtain ⟨kept, h1, h2⟩ := he.productions
  by_cases em : g' = g ∧ d = m
  · have ee : ¬ (g' = g₂ ∧ d = e) := fun e' => h.apart ⟨e'.1.symm.trans em.1, e'.2.symm.trans em.2⟩
    have hb := (he.bare em).2.1
    rw [if_neg ee, List.append_nil, hb] at h2
    subst h2
    rw [if_pos em] at h1
    rw [if_pos em, if_neg ee, h1, hb]
    obtain ⟨rfl, rfl⟩ := em
    simp [sumI]
  · rw [if_neg em, List.append_nil] at h1
    rw [if_neg em]
    by_cases ee : g' = g₂ ∧ d = e
    · rw [if_pos ee] at h2
      rw [if_pos ee, h1, h2, sumI_onemore]
      obtain ⟨rfl, rfl⟩ := ee
      have hlast : powerAt s' g' d = kept.length := by rw [powerAt, inNode_eq hi' hn', h2]; simp
      rw [hlast]
      ring
    · rw [if_neg ee, List.append_nil] at h2
      rw [if_neg ee, h1, h2]
      ring

include h hi hi' in
theorem imports_fuel (g' d : String) (t : ℕ) : imports s D g' d t = imports s' D g' d t := by
  rw [imports_sumN, imports_sumN]
  have := h.sumN hi hi' (f := fun g2 d2 n => if g2 = g' then sumI n.links fun x i => if x.dest = d then D.link g2 d2 i t else 0 else 0)
    (f' := fun g2 d2 n => if g2 = g' then sumI n.links fun x i => if x.dest = d then D.link g2 d2 i t else 0 else 0)
    (x := 0) (y := 0) (by
      intro g2 d2 n n' hn hn' he
      rw [he.links]
      simp)
  rw [this, add_zero, add_zero]

include h in
theorem from_fuel (g' d : String) (t : ℕ) :
    fromConverters s D g' d t = fromConverters s' D g' d t + if g' = g₂ ∧ d = e then D.convDest a t else 0 := by
  unfold fromConverters
  rw [h.converters, sumL_append]
  congr 1
  simp only [sumL, List.map_cons, List.map_nil, List.sum_cons, List.sum_nil, add_zero, h.gives.1, h.gives.2]
  have e' : (g₂ = g' ∧ e = d) ↔ (g' = g₂ ∧ d = e) := by constructor <;> (rintro ⟨rfl, rfl⟩; exact ⟨rfl, rfl⟩)
  simp only [e']

include h in
theorem to_fuel (g' d : String) (t : ℕ) :
    toConverters s D g' d t = toConverters s' D g' d t + if g' = g ∧ d = m then D.convSrc a (g, m) t else 0 := by
  unfold toConverters
  rw [h.converters, sumL_append]
  congr 1
  simp only [sumL, List.map_cons, List.map_nil, List.sum_cons, List.sum_nil, add_zero, h.takes]
  by_cases em : g' = g ∧ d = m
  · obtain ⟨rfl, rfl⟩ := em
    simp
  · have : ¬ [g, m] = [g', d] := by
      intro e'
      simp only [List.cons.injEq, and_true] at e'
      exact em ⟨e'.1.symm, e'.2.symm⟩
    rw [if_neg this, if_neg em]

include h hi hi' in
theorem balance_fuel (hp : SamePower s' k g m g₂ e a r D) {g' d : String} {n n' : InputNode} (hn : HasNode s g' d n)
    (hn' : HasNode s' g' d n') {t : ℕ} (hh : t < s'.horizon) :
    incoming s D g' d n t - outgoing s k D g' d n t = incoming s' D g' d n' t - outgoing s' k D g' d n' t := by
  have he := h.rel hi' hn hn'
  obtain ⟨a1, -, a3⟩ := hp t hh
  unfold incoming outgoing
  rw [imports_fuel h hi hi', prods_fuel h hi' hn hn' (fun _ x => x) t, from_fuel h, to_fuel h, he.storages, he.consumptions, he.links,
    a1, a3]
  split_ifs <;> ring

include h hi' in
theorem self_fuel {g' d : String} {n n' : InputNode} (hn : HasNode s g' d n)
    (hn' : HasNode s' g' d n') (t : ℕ) : selfFlow D g' d n t = selfFlow D g' d n' t := by
  unfold selfFlow
  rw [(h.rel hi' hn hn').links]

include h hi hi' in
theorem cost_fuel (hp : SamePower s' k g m g₂ e a r D) : cost s k D = cost s' k D := by
  unfold cost
  rw [h.horizon, h.converters]
  apply sumL_congr
  intro t hh
  have hh : t < s'.horizon := by simpa using hh
  have hh' : t < s.horizon := h.horizon ▸ hh
  have h1 := h.sumN hi hi' (f := fun g' d n => nodeCost k D g' d n t) (f' := fun g' d n => nodeCost k D g' d n t)
    (x := val p.cost k t * D.prod g m 0 t)
    (y := -(val p'.cost k t * D.prod g₂ e (powerAt s' g₂ e) t)) (by
      intro g' d n n' hn hn' he
      simp only [nodeCost]
      rw [prods_fuel h hi' hn hn' (fun x y => val x.cost k t * y) t, he.links, he.consumptions, he.storages]
      split_ifs <;> ring)
  unfold Hadar.sumN at h1
  obtain ⟨a1, a2, a3⟩ := hp t hh
  have hr := (h.positive t hh').ne'
  rw [h1, sumL_append, a3, a1, h.cost t hh', ← a2]
  simp only [sumL, List.map_cons, List.map_nil, List.sum_cons, List.sum_nil, add_zero]
  rw [← a2]
  field_simp
  ring

include h in
theorem fuel_prods {n : InputNode} (hn : HasNode s g m n) : n.productions = [p] ∧ n.links = [] := by
  obtain ⟨n', hn', he⟩ := h.nodes g m n hn
  obtain ⟨kept, h1, h2⟩ := he.productions
  obtain ⟨-, b2, -, b4⟩ := he.bare ⟨rfl, rfl⟩
  have ee : ¬ (g = g₂ ∧ m = e) := fun e' => h.apart ⟨e'.1.symm, e'.2.symm⟩
  rw [if_neg ee, List.append_nil, b2] at h2
  subst h2
  rw [if_pos ⟨rfl, rfl⟩] at h1
  exact ⟨h1, he.links.trans b4⟩

include h hi' in
theorem bounds_fuel (hp : SamePower s' k g m g₂ e a r D) : Bounds s k D ↔ Bounds s' k D := by
  have ha : (a, A) ∈ s.converters := by rw [h.converters]; simp
  have hm : ∀ {q : String × Converter}, q ∈ s'.converters → q ∈ s.converters := by
    intro q hq
    rw [h.converters]
    exact List.mem_append_left _ hq
  constructor
  · intro hD
    refine ⟨?_, ?_, ?_, ?_, ?_, ?_⟩
    · intro g' d n' hn' i x hx t hh
      obtain ⟨n, hn, he⟩ := h.nodes' g' d n' hn'
      exact hD.consumptions g' d n hn i x (by rw [he.consumptions]; exact hx) t (h.horizon ▸ hh)
    · intro g' d n' hn' i x hx t hh
      have hh' : t < s.horizon := h.horizon ▸ hh
      obtain ⟨n, hn, he⟩ := h.nodes' g' d n' hn'
      obtain ⟨kept, h1, h2⟩ := he.productions
      rw [h2] at hx
      rcases getElem?_snoc hx with hx | ⟨ee, e1, rfl⟩
      · exact hD.productions g' d n hn i x (by rw [h1]; exact getElem?_snoc_left hx) t hh'
      · rw [if_pos ee] at h2
        obtain ⟨rfl, rfl⟩ := ee
        have hlast : powerAt s' g' d = i := by rw [powerAt, inNode_eq hi' hn', h2, e1]; simp
        obtain ⟨a1, a2, a3⟩ := hp t hh
        rw [hlast] at a3
        obtain ⟨o, ho⟩ := h.nodeM
        have b1 := hD.productions g m o ho 0 p (by rw [(fuel_prods h ho).1]; rfl) t hh'
        have b2 := hD.convDest (a, A) ha t hh'
        dsimp only at b2
        rw [a1] at b1
        rw [a3, h.quantity t hh']
        refine ⟨b2.1, le_min ?_ b2.2⟩
        rw [← a2]
        exact mul_le_mul_of_nonneg_right b1.2 (h.positive t hh').le
    · intro g' d n' hn' i x hx t hh
      obtain ⟨n, hn, he⟩ := h.nodes' g' d n' hn'
      exact hD.storages g' d n hn i x (by rw [he.storages]; exact hx) t (h.horizon ▸ hh)
    · intro g' d n' hn' i x hx t hh
      obtain ⟨n, hn, he⟩ := h.nodes' g' d n' hn'
      exact hD.links g' d n hn i x (by rw [he.links]; exact hx) t (h.horizon ▸ hh)
    · intro q hq g' d x hr t hh
      exact hD.convSrc q (hm hq) g' d x hr t (h.horizon ▸ hh)
    · intro q hq t hh
      exact hD.convDest q (hm hq) t (h.horizon ▸ hh)
  · intro hD
    have hend : ∀ t < s'.horizon, 0 ≤ D.convDest a t ∧ D.convDest a t ≤ min (val p.quantity k t * val r k t) (fval A.max k t) := by
      intro t hh
      obtain ⟨x, hx⟩ := h.nodeE
      obtain ⟨x', hx', he⟩ := h.nodes g₂ e x hx
      obtain ⟨kept, -, h2⟩ := he.productions
      rw [if_pos ⟨rfl, rfl⟩] at h2
      rw [← (hp t hh).2.2, ← h.quantity t (h.horizon ▸ hh)]
      refine hD.productions g₂ e x' hx' _ p' ?_ t hh
      rw [powerAt, inNode_eq hi' hx', h2]
      simp
    have hsrc : ∀ t < s'.horizon, 0 ≤ D.convSrc a (g, m) t := by
      intro t hh
      have b := (hend t hh).1
      rw [← (hp t hh).2.1] at b
      exact nonneg_of_mul_nonneg_left b (h.positive t (h.horizon ▸ hh))
    refine ⟨?_, ?_, ?_, ?_, ?_, ?_⟩
    · intro g' d n hn i x hx t hh
      obtain ⟨n', hn', he⟩ := h.nodes g' d n hn
      exact hD.consumptions g' d n' hn' i x (by rw [← he.consumptions]; exact hx) t (h.horizon ▸ hh)
    · intro g' d n hn i x hx t hh
      have hh' : t < s'.horizon := h.horizon ▸ hh
      obtain ⟨n', hn', he⟩ := h.nodes g' d n hn
      obtain ⟨kept, h1, h2⟩ := he.productions
      by_cases em : g' = g ∧ d = m
      · obtain ⟨rfl, rfl⟩ := em
        rw [(fuel_prods h hn).1] at hx
        obtain ⟨rfl, rfl⟩ : i = 0 ∧ x = p := by
          cases i with
          | zero => exact ⟨rfl, by simpa using hx.symm⟩
          | succ i => simp at hx
        rw [(hp t hh').1]
        refine ⟨hsrc t hh', ?_⟩
        have b := (hend t hh').2.trans (min_le_left _ _)
        rw [← (hp t hh').2.1] at b
        exact le_of_mul_le_mul_right b (h.positive t hh)
      · rw [h1] at hx
        rcases getElem?_snoc hx with hx | ⟨e', -, -⟩
        · exact hD.productions g' d n' hn' i x (by rw [h2]; exact getElem?_snoc_left hx) t hh'
        · exact absurd e' em
    · intro g' d n hn i x hx t hh
      obtain ⟨n', hn', he⟩ := h.nodes g' d n hn
      exact hD.storages g' d n' hn' i x (by rw [← he.storages]; exact hx) t (h.horizon ▸ hh)
    · intro g' d n hn i x hx t hh
      obtain ⟨n', hn', he⟩ := h.nodes g' d n hn
      exact hD.links g' d n' hn' i x (by rw [← he.links]; exact hx) t (h.horizon ▸ hh)
    · intro q hq g' d x hr t hh
      have hh' : t < s'.horizon := h.horizon ▸ hh
      rw [h.converters, List.mem_append, List.mem_singleton] at hq
      rcases hq with hq | rfl
      · exact hD.convSrc q hq g' d x hr t hh'
      · simp only [h.takes, List.mem_singleton, Prod.mk.injEq, List.cons.injEq, and_true] at hr
        obtain ⟨⟨rfl, rfl⟩, rfl⟩ := hr
        refine ⟨hsrc t hh', fun _ => ?_⟩
        dsimp only
        rw [le_div_iff₀ (h.positive t hh), (hp t hh').2.1]
        exact (hend t hh').2.trans (min_le_right _ _)
    · intro q hq t hh
      have hh' : t < s'.horizon := h.horizon ▸ hh
      rw [h.converters, List.mem_append, List.mem_singleton] at hq
      rcases hq with hq | rfl
      · exact hD.convDest q hq t hh'
      · exact ⟨(hend t hh').1, (hend t hh').2.trans (min_le_right _ _)⟩

include h in
theorem ratios_fuel (hp : SamePower s' k g m g₂ e a r D) : RatiosOk s k D ↔ RatiosOk s' k D := by
  constructor
  · intro hD q hq g' d x hx t ht
    exact hD q (by rw [h.converters]; exact List.mem_append_left _ hq) g' d x hx t (h.horizon ▸ ht)
  · intro hD q hq g' d x hx t ht
    have ht' : t < s'.horizon := h.horizon ▸ ht
    rw [h.converters, List.mem_append, List.mem_singleton] at hq
    rcases hq with hq | rfl
    · exact hD q hq g' d x hx t ht'
    · simp only [h.takes, List.mem_singleton, Prod.mk.injEq, List.cons.injEq, and_true] at hx
      obtain ⟨⟨rfl, rfl⟩, rfl⟩ := hx
      exact (hp t ht').2.1

include h hi hi' in
theorem code_fuel (hp : SamePower s' k g m g₂ e a r D) : CodeFeasible s k D ↔ CodeFeasible s' k D := by
  constructor
  · intro hD
    refine ⟨(bounds_fuel h hi' hp).mp hD.bounds, ?_, ?_, (ratios_fuel h hp).mp hD.ratios⟩
    · intro g' d n' hn' t hh
      obtain ⟨n, hn, he⟩ := h.nodes' g' d n' hn'
      have := hD.balance g' d n hn t (h.horizon ▸ hh)
      rw [self_fuel h hi' hn hn'] at this
      linarith [balance_fuel h hi hi' hp hn hn' hh]
    · intro g' d n' hn' x hx t hh
      obtain ⟨n, hn, he⟩ := h.nodes' g' d n' hn'
      exact hD.storages g' d n hn x (by rw [he.storages]; exact hx) t (h.horizon ▸ hh)
  · intro hD
    refine ⟨(bounds_fuel h hi' hp).mpr hD.bounds, ?_, ?_, (ratios_fuel h hp).mpr hD.ratios⟩
    · intro g' d n hn t hh
      obtain ⟨n', hn', he⟩ := h.nodes g' d n hn
      have hh' : t < s'.horizon := h.horizon ▸ hh
      rw [self_fuel h hi' hn hn']
      linarith [hD.balance g' d n' hn' t hh', balance_fuel h hi hi' hp hn hn' hh']
    · intro g' d n hn x hx t hh
      obtain ⟨n', hn', he⟩ := h.nodes g' d n hn
      exact hD.storages g' d n' hn' x (by rw [← he.storages]; exact hx) t (h.horizon ▸ hh)

include h hi hi' in
theorem feasible_fuel (hp : SamePower s' k g m g₂ e a r D) : Spec.Feasible s k D ↔ Spec.Feasible s' k D := by
  constructor
  · intro hD
    refine ⟨(bounds_fuel h hi' hp).mp hD.bounds, ?_, ?_, (ratios_fuel h hp).mp hD.ratios⟩
    · intro g' d n' hn' t hh
      obtain ⟨n, hn, he⟩ := h.nodes' g' d n' hn'
      have := hD.balanced g' d n hn t (h.horizon ▸ hh)
      linarith [balance_fuel h hi hi' hp hn hn' hh]
    · intro g' d n' hn' i x hx t hh
      obtain ⟨n, hn, he⟩ := h.nodes' g' d n' hn'
      exact hD.storages g' d n hn i x (by rw [he.storages]; exact hx) t (h.horizon ▸ hh)
  · intro hD
    refine ⟨(bounds_fuel h hi' hp).mpr hD.bounds, ?_, ?_, (ratios_fuel h hp).mpr hD.ratios⟩
    · intro g' d n hn t hh
      obtain ⟨n', hn', he⟩ := h.nodes g' d n hn
      have hh' : t < s'.horizon := h.horizon ▸ hh
      linarith [hD.balanced g' d n' hn' t hh', balance_fuel h hi hi' hp hn hn' hh']
    · intro g' d n hn i x hx t hh
      obtain ⟨n', hn', he⟩ := h.nodes g' d n hn
      exact hD.storages g' d n' hn' i x (by rw [← he.storages]; exact hx) t (h.horizon ▸ hh)

include h hi hi' in
/-- where energy is balanced at the node of the fuel, the converter takes what is produced -/
theorem fuel_balance {n : InputNode} (hn : HasNode s g m n) {t : ℕ}
    (hb : incoming s D g m n t = outgoing s k D g m n t) : D.prod g m 0 t = D.convSrc a (g, m) t := by
  obtain ⟨n', hn', he⟩ := h.nodes g m n hn
  obtain ⟨b1, b2, b3, b4⟩ := he.bare ⟨rfl, rfl⟩
  have i1 : imports s' D g m t = 0 := by
    have h0 : Hadar.sumN s' (fun _ _ _ => 0) = 0 := by simp [Hadar.sumN, sumL]
    rw [imports_sumN]
    refine (sumN_congr fun g' d x hx => ?_).trans h0
    by_cases e0 : g' = g
    · subst e0
      rw [if_pos rfl]
      refine (sumI_congr fun y i hy => ?_).trans (sumI_zero x.links)
      exact if_neg (h.unreached d x hx y (List.mem_of_getElem? hy))
    · exact if_neg e0
  have i2 : fromConverters s' D g m t = 0 := by
    unfold fromConverters
    apply sumL_eq_zero
    intro q hq
    exact if_neg (h.unused q hq).1
  have o2 : toConverters s' D g m t = 0 := by
    unfold toConverters
    apply sumL_eq_zero
    intro q hq
    apply sumL_eq_zero
    intro x hx
    exact if_neg ((h.unused q hq).2 x hx)
  obtain ⟨q1, q2⟩ := fuel_prods h hn
  have ee : ¬ (g = g₂ ∧ m = e) := fun e' => h.apart ⟨e'.1.symm, e'.2.symm⟩
  unfold incoming outgoing at hb
  rw [imports_fuel h hi hi', from_fuel h, to_fuel h, i1, i2, o2, q1, q2, he.consumptions, he.storages, b1, b3, if_neg ee] at hb
  simpa [sumI] using hb

include h in
theorem fuel_ratio (hD : RatiosOk s k D) : ∀ t < s.horizon, D.convSrc a (g, m) t * val r k t = D.convDest a t :=
  fun t ht => hD (a, A) (by rw [h.converters]; simp) g m r (by simp [h.takes]) t ht

include h in
theorem here_same (hi' : StudyInv s') (D : Dispatch) : SameFlows s D (producedHere s' g₂ e a D) where
  lol _ _ _ _ _ _ _ _ := rfl
  prod g' d n hn i hlt t ht := by
    have : ¬ (g' = g₂ ∧ d = e ∧ i = powerAt s' g₂ e) := by
      rintro ⟨rfl, rfl, rfl⟩
      obtain ⟨n', hn', he⟩ := h.nodes g' d n hn
      obtain ⟨kept, h1, h2⟩ := he.productions
      rw [if_neg h.apart, List.append_nil] at h1
      rw [if_pos ⟨rfl, rfl⟩] at h2
      rw [powerAt, inNode_eq hi' hn', h1, h2] at hlt
      simp at hlt
    simp [producedHere, this]
  cap _ _ _ _ _ _ _ _ := rfl
  fin _ _ _ _ _ _ _ _ := rfl
  fout _ _ _ _ _ _ _ _ := rfl
  link _ _ _ _ _ _ _ _ := rfl
  convSrc _ _ _ _ _ _ _ := rfl
  convDest _ _ _ _ := rfl

include h hi in
theorem made_same (D : Dispatch) : SameFlows s' D (madeOfFuel s' k g m g₂ e a r D) where
  lol _ _ _ _ _ _ _ _ := rfl
  prod g' d n' hn' i hlt t ht := by
    have : ¬ (g' = g ∧ d = m ∧ i = 0) := by
      rintro ⟨rfl, rfl, -⟩
      obtain ⟨n, hn, he⟩ := h.nodes' g' d n' hn'
      rw [(he.bare ⟨rfl, rfl⟩).2.1] at hlt
      simp at hlt
    simp [madeOfFuel, this]
  cap _ _ _ _ _ _ _ _ := rfl
  fin _ _ _ _ _ _ _ _ := rfl
  fout _ _ _ _ _ _ _ _ := rfl
  link _ _ _ _ _ _ _ _ := rfl
  convSrc q hq _ _ _ _ _ := by simp [madeOfFuel, h.names hi q hq]
  convDest q hq _ _ := by simp [madeOfFuel, h.names hi q hq]

include h in
theorem made_power (D : Dispatch) : SamePower s' k g m g₂ e a r (madeOfFuel s' k g m g₂ e a r D) := by
  intro t ht
  have e1 := h.apart
  have hr := (h.positive t (h.horizon ▸ ht)).ne'
  have e2 : ¬ (g₂ = g ∧ e = m ∧ powerAt s' g₂ e = 0) := fun x => e1 ⟨x.1, x.2.1⟩
  simp [madeOfFuel, e2, hr]

include h in
theorem here_power (hD : ∀ t < s.horizon, D.prod g m 0 t = D.convSrc a (g, m) t)
    (hr : ∀ t < s.horizon, D.convSrc a (g, m) t * val r k t = D.convDest a t) :
    SamePower s' k g m g₂ e a r (producedHere s' g₂ e a D) := by
  intro t ht
  have ht' : t < s.horizon := h.horizon ▸ ht
  have e2 : ¬ (g = g₂ ∧ m = e ∧ 0 = powerAt s' g₂ e) := fun x => h.apart ⟨x.1.symm, x.2.1.symm⟩
  simp [producedHere, e2, hD t ht', hr t ht']

end

end Hadar
