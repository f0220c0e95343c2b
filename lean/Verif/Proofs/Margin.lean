import Verif.Spec.Margin
import Verif.Proofs.Prices

/-! # Helper lemmas on dispatches of the same cost -/

namespace Hadar

open Spec

variable {s : Study} {k : ℕ} {P : Prices} {D D' : Dispatch}

theorem sumL_eq_each {α : Type} {l : List α} {f f' : α → ℚ} (h : ∀ a ∈ l, f a ≤ f' a) (he : sumL l f = sumL l f') :
    ∀ a ∈ l, f a = f' a := by
  induction l with
  | nil => intro a ha; cases ha
  | cons b l ih =>
    have e : ∀ f : α → ℚ, sumL (b :: l) f = f b + sumL l f := fun f => by simp [sumL]
    rw [e, e] at he
    have h1 := h b List.mem_cons_self
    have h2 : sumL l f ≤ sumL l f' := sumL_le fun a ha => h a (List.mem_cons_of_mem _ ha)
    intro a ha
    rcases List.mem_cons.mp ha with rfl | ha
    · linarith
    · exact ih (fun a ha => h a (List.mem_cons_of_mem _ ha)) (by linarith) a ha

theorem sumI_eq_each {α : Type} {l : List α} {f f' : α → ℕ → ℚ} (h : ∀ a i, l[i]? = some a → f a i ≤ f' a i)
    (he : sumI l f = sumI l f') : ∀ a i, l[i]? = some a → f a i = f' a i := by
  rw [sumI_eq, sumI_eq] at he
  intro a i ha
  exact sumL_eq_each (f := fun p : α × ℕ => f p.1 p.2) (f' := fun p : α × ℕ => f' p.1 p.2)
    (fun p hp => h p.1 p.2 (mem_zipIdx_iff.mp hp)) he (a, i) (mem_zipIdx_iff.mpr ha)

theorem best_of_eq {c x x' u : ℚ} (h : Best c x u) (he : c * x = c * x') : Best c x' u := by
  constructor
  · intro hc
    rw [h.1 hc, mul_zero] at he
    rcases mul_eq_zero.mp he.symm with h0 | h0
    · linarith
    · exact h0
  · intro hc
    rw [h.2 hc] at he
    exact (mul_left_cancel₀ (ne_of_lt hc) he).symm

theorem node_le (he : Equilibrium s k D P) (hb : Bounds s k D') {t : ℕ} (ht : t < s.horizon) {g d : String} {n : InputNode}
    (hn : HasNode s g d n) : nodeRed s k P D t g d n ≤ nodeRed s k P D' t g d n := by
  unfold nodeRed
  refine add_le_add (add_le_add (add_le_add (add_le_add (add_le_add ?_ ?_) ?_) ?_) ?_) ?_ <;> apply sumI_le <;> intro c i hc
  · exact best_le (he.consumptions g d n hn i c hc t ht) (hb.consumptions g d n hn i c hc t ht)
  · exact best_le (he.productions g d n hn i c hc t ht) (hb.productions g d n hn i c hc t ht)
  · exact best_le (he.links g d n hn i c hc t ht) (hb.links g d n hn i c hc t ht)
  · exact best_le (he.held g d n hn i c hc t ht) (hb.storages g d n hn i c hc t ht).1
  · exact best_le (he.filled g d n hn i c hc t ht) (hb.storages g d n hn i c hc t ht).2.1
  · exact best_le (he.emptied g d n hn i c hc t ht) (hb.storages g d n hn i c hc t ht).2.2

theorem src_le (he : Equilibrium s k D P) (hb : Bounds s k D') {t : ℕ} (ht : t < s.horizon) {p : String × Converter}
    (hp : p ∈ s.converters) {g d : String} {r : NumVal} (hq : ([g, d], r) ∈ p.2.srcRatios) :
    (P.node g d t - val r k t * P.used p.1 (g, d) t) * D.convSrc p.1 (g, d) t ≤
      (P.node g d t - val r k t * P.used p.1 (g, d) t) * D'.convSrc p.1 (g, d) t := by
  have h1 := he.taken p hp g d r hq t ht
  have h2 := hb.convSrc p hp g d r hq t ht
  by_cases hz : val r k t = 0
  · obtain ⟨h3, h4⟩ := h1.2 hz
    simp only [hz, zero_mul, sub_zero]
    rcases h3.lt_or_eq with h5 | h5
    · rw [h4 h5, mul_zero]
      exact mul_nonneg h3 h2.1
    · rw [← h5, zero_mul, zero_mul]
  · exact best_le (h1.1 hz) ⟨h2.1, h2.2 hz⟩

theorem conv_le (hi : StudyInv s) (he : Equilibrium s k D P) (hb : Bounds s k D') {t : ℕ} (ht : t < s.horizon)
    {p : String × Converter} (hp : p ∈ s.converters) : convRed k P D t p ≤ convRed k P D' t p := by
  unfold convRed
  apply add_le_add
  · exact best_le (he.given p hp t ht) (hb.convDest p hp t ht)
  · apply sumL_le
    intro q hq
    obtain ⟨g, d, n, e, hn⟩ := (hi.convs p hp).sources q.1 (List.mem_map.mpr ⟨q, hq, rfl⟩)
    have hq' : ([g, d], q.2) ∈ p.2.srcRatios := by rw [← e]; exact hq
    rw [e]
    exact src_le he hb ht hp hq'

/-- prices of a dispatch are prices of all dispatches of the same cost -/
theorem equilibrium_of_cost (hi : StudyInv s) (hdest : ∀ p ∈ s.converters, ∃ n, HasNode s p.2.destNetwork p.2.destNode n)
    (hD : Spec.Feasible s k D) (he : Equilibrium s k D P) (hD' : Spec.Feasible s k D') (hc : cost s k D' = cost s k D) :
    Equilibrium s k D' P := by
  have hb := hD'.bounds
  rw [cost_eq_rows_reds (P := P) hi hdest, cost_eq_rows_reds (P := P) hi hdest, rows_const hi hD, rows_const hi hD'] at hc
  have hred : reds s k P D = reds s k P D' := by linarith
  have hnodes : ∀ t < s.horizon, sumN s (nodeRed s k P D t) ≤ sumN s (nodeRed s k P D' t) := fun t ht =>
    sumL_le fun p hp => sumL_le fun q hq => node_le he hb ht ⟨p.2, hp, hq⟩
  have hconvs : ∀ t < s.horizon, sumL s.converters (convRed k P D t) ≤ sumL s.converters (convRed k P D' t) := fun t ht =>
    sumL_le fun p hp => conv_le hi he hb ht hp
  have ht0 : ∀ t < s.horizon, sumN s (nodeRed s k P D t) + sumL s.converters (convRed k P D t) =
      sumN s (nodeRed s k P D' t) + sumL s.converters (convRed k P D' t) := fun t ht =>
    sumL_eq_each (fun t ht => add_le_add (hnodes t (List.mem_range.mp ht)) (hconvs t (List.mem_range.mp ht))) hred t
      (List.mem_range.mpr ht)
  have hN : ∀ t < s.horizon, ∀ g d n, HasNode s g d n → nodeRed s k P D t g d n = nodeRed s k P D' t g d n := by
    intro t ht g d n hn
    have h1 := hnodes t ht
    have h2 := hconvs t ht
    have h3 : sumN s (nodeRed s k P D t) = sumN s (nodeRed s k P D' t) := by linarith [ht0 t ht]
    obtain ⟨net, hg, hd⟩ := hn
    have h4 := sumL_eq_each (f := fun p : String × InputNetwork => sumL p.2.nodes fun q => nodeRed s k P D t p.1 q.1 q.2)
      (f' := fun p : String × InputNetwork => sumL p.2.nodes fun q => nodeRed s k P D' t p.1 q.1 q.2)
      (fun p hp => sumL_le fun q hq => node_le he hb ht ⟨p.2, hp, hq⟩) h3 _ hg
    exact sumL_eq_each (f := fun q : String × InputNode => nodeRed s k P D t g q.1 q.2)
      (f' := fun q : String × InputNode => nodeRed s k P D' t g q.1 q.2)
      (fun q hq => node_le he hb ht ⟨net, hg, hq⟩) h4 _ hd
  have hC : ∀ t < s.horizon, ∀ p ∈ s.converters, convRed k P D t p = convRed k P D' t p := by
    intro t ht
    have h1 := hnodes t ht
    have h2 := hconvs t ht
    exact sumL_eq_each (fun p hp => conv_le hi he hb ht hp) (by linarith [ht0 t ht])
  have hparts : ∀ t < s.horizon, ∀ g d n, HasNode s g d n →
      (∀ c i, n.consumptions[i]? = some c → (val c.cost k t - P.node g d t) * D.lol g d i t =
        (val c.cost k t - P.node g d t) * D'.lol g d i t) ∧
      (∀ c i, n.productions[i]? = some c → (val c.cost k t - P.node g d t) * D.prod g d i t =
        (val c.cost k t - P.node g d t) * D'.prod g d i t) ∧
      (∀ c i, n.links[i]? = some c → (val c.cost k t + P.node g d t - P.node g c.dest t) * D.link g d i t =
        (val c.cost k t + P.node g d t - P.node g c.dest t) * D'.link g d i t) ∧
      (∀ c i, n.storages[i]? = some c →
        (val c.cost k t + P.stored g d i t - P.storedNext s.horizon g d i t) * D.cap g d i t =
        (val c.cost k t + P.stored g d i t - P.storedNext s.horizon g d i t) * D'.cap g d i t) ∧
      (∀ c i, n.storages[i]? = some c → (P.node g d t - val c.eff k t * P.stored g d i t) * D.fin g d i t =
        (P.node g d t - val c.eff k t * P.stored g d i t) * D'.fin g d i t) ∧
      (∀ c i, n.storages[i]? = some c → (P.stored g d i t - P.node g d t) * D.fout g d i t =
        (P.stored g d i t - P.node g d t) * D'.fout g d i t) := by
    intro t ht g d n hn
    have h := hN t ht g d n hn
    unfold nodeRed at h
    have l1 := fun (c : Consumption) (i : ℕ) (hc : n.consumptions[i]? = some c) =>
      best_le (he.consumptions g d n hn i c hc t ht) (hb.consumptions g d n hn i c hc t ht)
    have l2 := fun (c : Production) (i : ℕ) (hc : n.productions[i]? = some c) =>
      best_le (he.productions g d n hn i c hc t ht) (hb.productions g d n hn i c hc t ht)
    have l3 := fun (c : Link) (i : ℕ) (hc : n.links[i]? = some c) =>
      best_le (he.links g d n hn i c hc t ht) (hb.links g d n hn i c hc t ht)
    have l4 := fun (c : Storage) (i : ℕ) (hc : n.storages[i]? = some c) =>
      best_le (he.held g d n hn i c hc t ht) (hb.storages g d n hn i c hc t ht).1
    have l5 := fun (c : Storage) (i : ℕ) (hc : n.storages[i]? = some c) =>
      best_le (he.filled g d n hn i c hc t ht) (hb.storages g d n hn i c hc t ht).2.1
    have l6 := fun (c : Storage) (i : ℕ) (hc : n.storages[i]? = some c) =>
      best_le (he.emptied g d n hn i c hc t ht) (hb.storages g d n hn i c hc t ht).2.2
    have s1 := sumI_le l1
    have s2 := sumI_le l2
    have s3 := sumI_le l3
    have s4 := sumI_le l4
    have s5 := sumI_le l5
    have s6 := sumI_le l6
    exact ⟨sumI_eq_each l1 (by linarith), sumI_eq_each l2 (by linarith), sumI_eq_each l3 (by linarith),
      sumI_eq_each l4 (by linarith), sumI_eq_each l5 (by linarith), sumI_eq_each l6 (by linarith)⟩
  have hcparts : ∀ t < s.horizon, ∀ p ∈ s.converters,
      (fval p.2.cost k t + (sumL p.2.srcRatios fun q => P.used p.1 (srcPair q.1) t) -
        P.node p.2.destNetwork p.2.destNode t) * D.convDest p.1 t =
      (fval p.2.cost k t + (sumL p.2.srcRatios fun q => P.used p.1 (srcPair q.1) t) -
        P.node p.2.destNetwork p.2.destNode t) * D'.convDest p.1 t ∧
      ∀ q ∈ p.2.srcRatios, (P.node (srcPair q.1).1 (srcPair q.1).2 t - val q.2 k t * P.used p.1 (srcPair q.1) t) *
          D.convSrc p.1 (srcPair q.1) t =
        (P.node (srcPair q.1).1 (srcPair q.1).2 t - val q.2 k t * P.used p.1 (srcPair q.1) t) *
          D'.convSrc p.1 (srcPair q.1) t := by
    intro t ht p hp
    have h := hC t ht p hp
    unfold convRed at h
    have l1 := best_le (he.given p hp t ht) (hb.convDest p hp t ht)
    have l2 : ∀ q ∈ p.2.srcRatios, (P.node (srcPair q.1).1 (srcPair q.1).2 t - val q.2 k t * P.used p.1 (srcPair q.1) t) *
          D.convSrc p.1 (srcPair q.1) t ≤
        (P.node (srcPair q.1).1 (srcPair q.1).2 t - val q.2 k t * P.used p.1 (srcPair q.1) t) *
          D'.convSrc p.1 (srcPair q.1) t := by
      intro q hq
      obtain ⟨g, d, n, e, hn⟩ := (hi.convs p hp).sources q.1 (List.mem_map.mpr ⟨q, hq, rfl⟩)
      have hq' : ([g, d], q.2) ∈ p.2.srcRatios := by rw [← e]; exact hq
      rw [e]
      exact src_le he hb ht hp hq'
    have s2 := sumL_le l2
    exact ⟨by linarith, sumL_eq_each l2 (by linarith)⟩
  refine ⟨?_, ?_, ?_, ?_, ?_, ?_, ?_, ?_⟩
  · exact fun g d n hn i c hc t ht => best_of_eq (he.consumptions g d n hn i c hc t ht) ((hparts t ht g d n hn).1 c i hc)
  · exact fun g d n hn i c hc t ht => best_of_eq (he.productions g d n hn i c hc t ht) ((hparts t ht g d n hn).2.1 c i hc)
  · exact fun g d n hn i c hc t ht => best_of_eq (he.links g d n hn i c hc t ht) ((hparts t ht g d n hn).2.2.1 c i hc)
  · exact fun g d n hn i c hc t ht => best_of_eq (he.held g d n hn i c hc t ht) ((hparts t ht g d n hn).2.2.2.1 c i hc)
  · exact fun g d n hn i c hc t ht => best_of_eq (he.filled g d n hn i c hc t ht) ((hparts t ht g d n hn).2.2.2.2.1 c i hc)
  · exact fun g d n hn i c hc t ht => best_of_eq (he.emptied g d n hn i c hc t ht) ((hparts t ht g d n hn).2.2.2.2.2 c i hc)
  · intro p hp g d r hr t ht
    have h := he.taken p hp g d r hr t ht
    have e := (hcparts t ht p hp).2 _ hr
    simp only [srcPair] at e
    refine ⟨fun hz => best_of_eq (h.1 hz) e, fun hz => ⟨(h.2 hz).1, fun hpos => ?_⟩⟩
    rw [hz, zero_mul, sub_zero, (h.2 hz).2 hpos, mul_zero] at e
    rcases mul_eq_zero.mp e.symm with h0 | h0
    · linarith
    · exact h0
  · exact fun p hp t ht => best_of_eq (he.given p hp t ht) (hcparts t ht p hp).1

theorem best_same {c x x' u : ℚ} (h : Best c x u) (h' : Best c x' u) (hc : c ≠ 0) : x = x' := by
  rcases lt_or_gt_of_ne hc with hc | hc
  · rw [h.2 hc, h'.2 hc]
  · rw [h.1 hc, h'.1 hc]

/-- two dispatches with the same prices -/
theorem agree_of_equilibrium (he : Equilibrium s k D P) (he' : Equilibrium s k D' P) : AgreeOffMargin s k P D D' := by
  refine ⟨?_, ?_, ?_, ?_, ?_, ?_, ?_, ?_⟩
  · exact fun g d n hn i c hc t ht h => best_same (he.consumptions g d n hn i c hc t ht) (he'.consumptions g d n hn i c hc t ht)
      (sub_ne_zero.mpr h)
  · exact fun g d n hn i c hc t ht h => best_same (he.productions g d n hn i c hc t ht) (he'.productions g d n hn i c hc t ht)
      (sub_ne_zero.mpr h)
  · exact fun g d n hn i c hc t ht h => best_same (he.links g d n hn i c hc t ht) (he'.links g d n hn i c hc t ht)
      (sub_ne_zero.mpr (by rwa [add_comm]))
  · exact fun g d n hn i c hc t ht h => best_same (he.held g d n hn i c hc t ht) (he'.held g d n hn i c hc t ht)
      (sub_ne_zero.mpr (by rwa [add_comm]))
  · exact fun g d n hn i c hc t ht h => best_same (he.filled g d n hn i c hc t ht) (he'.filled g d n hn i c hc t ht)
      (sub_ne_zero.mpr h)
  · exact fun g d n hn i c hc t ht h => best_same (he.emptied g d n hn i c hc t ht) (he'.emptied g d n hn i c hc t ht)
      (sub_ne_zero.mpr h)
  · intro p hp g d r hr t ht h
    have h1 := he.taken p hp g d r hr t ht
    have h2 := he'.taken p hp g d r hr t ht
    by_cases hz : val r k t = 0
    · rw [hz, zero_mul] at h
      have hpos := lt_of_le_of_ne (h1.2 hz).1 (Ne.symm h)
      rw [(h1.2 hz).2 hpos, (h2.2 hz).2 hpos]
    · exact best_same (h1.1 hz) (h2.1 hz) (sub_ne_zero.mpr h)
  · exact fun p hp t ht h => best_same (he.given p hp t ht) (he'.given p hp t ht) (sub_ne_zero.mpr h)

end Hadar
