import Verif.Spec.Precision
import Verif.Proofs.Tolerance
import Verif.Proofs.Cut
import Verif.Proofs.Tax
import Mathlib.Algebra.Order.Group.MinMax

/-!
# Data known up to an error: lemmas
-/

namespace Hadar

open Spec

variable {s s' : Study} {k k' : ℕ} {P : Prices} {e f : ℚ}

theorem Spec.Near.abs {x y : ℚ} (h : Near e x y) : |x - y| ≤ e := by
  rw [abs_le]
  exact ⟨by linarith [h.2], by linarith [h.1]⟩

theorem Spec.Measured.symm (h : Measured e f s k s' k') : Measured e f s' k' s k :=
  Compared.imp (fun _ _ h => h.symm) (fun _ _ h => h.symm) (fun _ _ h => h.symm) (Compared.flip h)

theorem payment_near {A A' q q' : ℚ} (hA : |A - A'| ≤ e) (hq : Near f q' q) (h0 : 0 ≤ q') : A * q - f * |A| ≤ A' * q' + e * q' := by
  have h1 : (A - A') * q' ≤ e * q' := mul_le_mul_of_nonneg_right ((le_abs_self _).trans hA) h0
  have h2 : A * (q - q') ≤ |A| * f := by
    refine (le_abs_self _).trans ?_
    rw [abs_mul]
    exact mul_le_mul_of_nonneg_left hq.symm.abs (abs_nonneg _)
  linarith

theorem earning_near {a a' q q' : ℚ} (hA : |a - a'| ≤ e) (hq : Near f q' q) (h0 : 0 ≤ q') :
    -(max 0 a * q) - f * max 0 a ≤ -(max 0 a' * q') + e * q' := by
  have hm : |max 0 a - max 0 a'| ≤ e := by
    rw [max_comm, max_comm 0 a']
    exact (abs_max_sub_max_le_abs a a' 0).trans hA
  have h1 : (max 0 a' - max 0 a) * q' ≤ e * q' :=
    mul_le_mul_of_nonneg_right ((le_abs_self _).trans (by rwa [abs_sub_comm])) h0
  have h2 : max 0 a * (q' - q) ≤ max 0 a * f := mul_le_mul_of_nonneg_left (by linarith [hq.1]) (le_max_left _ _)
  linarith

theorem sumI_negs {α : Type} (l : List α) (a u : α → ℕ → ℚ) :
    (sumI l fun c i => -(a c i) - f * u c i) = -sumI l a - f * sumI l u := by
  rw [sumI_sub, sumI_neg', sumI_mul]

theorem node_precise {t : ℕ} (hh : s.horizon = s'.horizon) {g d : String} {n n' : InputNode}
    (hN : NodeCmp s'.horizon k' k (Near e) (Near f) (Near f) n' n) (ht : t < s'.horizon) {D : Dispatch} (hb : Bounds s' k' D)
    (hn : HasNode s' g d n') :
    nodeWorth s k P t g d n - f * nodeUnits s k P t g d n ≤ nodeWorth s' k' P t g d n' + e * nodeVolume k' t n' := by
  have h1 : (sumI n.consumptions fun c _ => min (P.node g d t) (val c.cost k t) * val c.quantity k t - f * |min (P.node g d t) (val c.cost k t)|) ≤
      sumI n'.consumptions fun c _ => min (P.node g d t) (val c.cost k' t) * val c.quantity k' t + e * val c.quantity k' t := by
    apply sumI_rel_le hN.consumptions
    intro i a b hia _ hab
    have hb' := hb.consumptions g d n' hn i a hia t ht
    refine payment_near ?_ (hab.2 t ht) (hb'.1.trans hb'.2)
    refine (abs_min_sub_min_le_max _ _ _ _).trans ?_
    rw [sub_self, abs_zero, max_eq_right (abs_nonneg _)]
    exact (hab.1 t ht).symm.abs
  have h2 : (sumI n.productions fun c _ => -(max 0 (P.node g d t - val c.cost k t) * val c.quantity k t) - f * max 0 (P.node g d t - val c.cost k t)) ≤
      sumI n'.productions fun c _ => -(max 0 (P.node g d t - val c.cost k' t) * val c.quantity k' t) + e * val c.quantity k' t := by
    apply sumI_rel_le hN.productions
    intro i a b hia _ hab
    have hb' := hb.productions g d n' hn i a hia t ht
    refine earning_near ?_ (hab.2 t ht) (hb'.1.trans hb'.2)
    rw [show P.node g d t - val b.cost k t - (P.node g d t - val a.cost k' t) = val a.cost k' t - val b.cost k t by ring]
    exact (hab.1 t ht).abs
  have h3 : (sumI n.links fun c _ => -(max 0 (P.node g c.dest t - P.node g d t - val c.cost k t) * val c.quantity k t) -
        f * max 0 (P.node g c.dest t - P.node g d t - val c.cost k t)) ≤
      sumI n'.links fun c _ => -(max 0 (P.node g c.dest t - P.node g d t - val c.cost k' t) * val c.quantity k' t) + e * val c.quantity k' t := by
    apply sumI_rel_le hN.links
    intro i a b hia _ hab
    have hb' := hb.links g d n' hn i a hia t ht
    rw [← hab.1]
    refine earning_near ?_ (hab.2.2 t ht) (hb'.1.trans hb'.2)
    rw [show P.node g a.dest t - P.node g d t - val b.cost k t - (P.node g a.dest t - P.node g d t - val a.cost k' t) =
      val a.cost k' t - val b.cost k t by ring]
    exact (hab.2.1 t ht).abs
  have h4 : (sumI n.storages fun c i => -(max 0 (P.storedNext s.horizon g d i t - P.stored g d i t - val c.cost k t) * val c.capacity k t) -
        f * max 0 (P.storedNext s.horizon g d i t - P.stored g d i t - val c.cost k t)) ≤
      sumI n'.storages fun c i => -(max 0 (P.storedNext s'.horizon g d i t - P.stored g d i t - val c.cost k' t) * val c.capacity k' t) +
        e * val c.capacity k' t := by
    rw [hh]
    apply sumI_rel_le hN.storages
    intro i a b hia _ hab
    have hb' := (hb.storages g d n' hn i a hia t ht).1
    refine earning_near ?_ (hab.1 t ht) (hb'.1.trans hb'.2)
    rw [show P.storedNext s'.horizon g d i t - P.stored g d i t - val b.cost k t -
      (P.storedNext s'.horizon g d i t - P.stored g d i t - val a.cost k' t) = val a.cost k' t - val b.cost k t by ring]
    exact (hab.2.2.2.1 t ht).abs
  have z : ∀ a : ℚ, |a - a| ≤ 0 := fun a => by simp
  have h5 : (sumI n.storages fun c i => -(max 0 (val c.eff k t * P.stored g d i t - P.node g d t) * val c.flowIn k t) -
        f * max 0 (val c.eff k t * P.stored g d i t - P.node g d t)) ≤
      sumI n'.storages fun c i => -(max 0 (val c.eff k' t * P.stored g d i t - P.node g d t) * val c.flowIn k' t) := by
    apply sumI_rel_le hN.storages
    intro i a b hia _ hab
    have hb' := (hb.storages g d n' hn i a hia t ht).2.1
    rw [← hab.2.2.2.2.2 t ht]
    simpa using earning_near (z _) (hab.2.1 t ht) (hb'.1.trans hb'.2)
  have h6 : (sumI n.storages fun c i => -(max 0 (P.node g d t - P.stored g d i t) * val c.flowOut k t) -
        f * max 0 (P.node g d t - P.stored g d i t)) ≤
      sumI n'.storages fun c i => -(max 0 (P.node g d t - P.stored g d i t) * val c.flowOut k' t) := by
    apply sumI_rel_le hN.storages
    intro i a b hia _ hab
    have hb' := (hb.storages g d n' hn i a hia t ht).2.2
    simpa using earning_near (z _) (hab.2.2.1 t ht) (hb'.1.trans hb'.2)
  simp only [sumI_sub, sumI_add, sumI_neg', sumI_mul] at h1 h2 h3 h4 h5 h6
  unfold nodeWorth nodeUnits nodeVolume
  linarith

theorem conv_precise {t : ℕ} {p p' : String × Converter} (e1 : p'.1 = p.1)
    (hC : ConverterCmp s'.horizon k' k (Near e) (Near f) p'.2 p.2) (ht : t < s'.horizon) {D : Dispatch} (hb : Bounds s' k' D)
    (hp : p' ∈ s'.converters) :
    -convWorth k P t p - f * convUnits k P t p ≤ -convWorth k' P t p' + e * fval p'.2.max k' t := by
  have h0 : (sumL p.2.srcRatios fun q => P.used p.1 (srcPair q.1) t) = sumL p'.2.srcRatios fun q => P.used p'.1 (srcPair q.1) t := by
    symm
    apply sumL_rel hC.sources
    intro a _ b _ hab
    rw [hab.1, e1]
  have h1 : -(max 0 (P.node p.2.destNetwork p.2.destNode t - (sumL p.2.srcRatios fun q => P.used p.1 (srcPair q.1) t) - fval p.2.cost k t) *
        fval p.2.max k t) - f * max 0 (P.node p.2.destNetwork p.2.destNode t - (sumL p.2.srcRatios fun q => P.used p.1 (srcPair q.1) t) -
          fval p.2.cost k t) ≤
      -(max 0 (P.node p'.2.destNetwork p'.2.destNode t - (sumL p'.2.srcRatios fun q => P.used p'.1 (srcPair q.1) t) - fval p'.2.cost k' t) *
        fval p'.2.max k' t) + e * fval p'.2.max k' t := by
    have hb' := hb.convDest p' hp t ht
    rw [h0, hC.destNetwork, hC.destNode]
    refine earning_near ?_ (hC.max t ht) (hb'.1.trans hb'.2)
    rw [show ∀ x y u v : ℚ, x - y - u - (x - y - v) = v - u from fun x y u v => by ring]
    exact (hC.cost t ht).abs
  have h2 : (sumL p.2.srcRatios fun q => -(max 0 (val q.2 k t * P.used p.1 (srcPair q.1) t - P.node (srcPair q.1).1 (srcPair q.1).2 t) *
        (fval p.2.max k t / val q.2 k t)) - f * (max 0 (val q.2 k t * P.used p.1 (srcPair q.1) t - P.node (srcPair q.1).1 (srcPair q.1).2 t) *
          |(val q.2 k t)⁻¹|)) ≤
      sumL p'.2.srcRatios fun q => -(max 0 (val q.2 k' t * P.used p'.1 (srcPair q.1) t - P.node (srcPair q.1).1 (srcPair q.1).2 t) *
        (fval p'.2.max k' t / val q.2 k' t)) := by
    apply sumL_rel_le hC.sources
    intro a _ b _ hab
    rw [← hab.1, ← hab.2 t ht, ← e1]
    have hA := le_max_left 0 (val a.2 k' t * P.used p'.1 (srcPair a.1) t - P.node (srcPair a.1).1 (srcPair a.1).2 t)
    revert hA
    generalize max 0 (val a.2 k' t * P.used p'.1 (srcPair a.1) t - P.node (srcPair a.1).1 (srcPair a.1).2 t) = A
    intro hA
    have h3 : (fval p'.2.max k' t - fval p.2.max k t) * (val a.2 k' t)⁻¹ ≤ f * |(val a.2 k' t)⁻¹| := by
      refine (le_abs_self _).trans ?_
      rw [abs_mul]
      exact mul_le_mul_of_nonneg_right (hC.max t ht).abs (abs_nonneg _)
    have h4 := mul_le_mul_of_nonneg_left h3 hA
    rw [div_eq_mul_inv, div_eq_mul_inv]
    linarith
  simp only [sumL_sub, sumL_neg, sumL_mul] at h2
  unfold convWorth convUnits
  linarith

/-- what a study is worth hardly depends on errors on its data -/
theorem worth_precise (h : Measured e f s k s' k') {D : Dispatch} (hb : Bounds s' k' D) :
    worth s k P ≤ worth s' k' P + e * dataVolume s' k' + f * unitsWorth s k P := by
  have h' := h.symm
  have hh : s.horizon = s'.horizon := Alike.horizon h
  have h1 : (sumL (List.range s.horizon) fun t => (sumN s (nodeWorth s k P t) - f * sumN s (nodeUnits s k P t)) +
        (-sumL s.converters (convWorth k P t) - f * sumL s.converters (convUnits k P t))) ≤
      sumL (List.range s'.horizon) fun t => (sumN s' (nodeWorth s' k' P t) + e * sumN s' fun _ _ n => nodeVolume k' t n) +
        (-sumL s'.converters (convWorth k' P t) + e * sumL s'.converters fun p => fval p.2.max k' t) := by
    rw [hh]
    apply sumL_le
    intro t ht
    have ht := List.mem_range.mp ht
    refine add_le_add ?_ ?_
    · rw [← sumN_mul, ← sumN_sub, ← sumN_mul, ← sumN_add]
      refine sumL_rel_le (Alike.networks h') ?_
      rintro ⟨g, net⟩ hg ⟨g', net'⟩ _ ⟨e1, hnet⟩
      dsimp only at e1 hnet ⊢
      subst e1
      refine sumL_rel_le hnet ?_
      rintro ⟨d, n⟩ hd ⟨d', n'⟩ _ ⟨e1, hN⟩
      dsimp only at e1 hN ⊢
      subst e1
      exact node_precise hh hN ht hb ⟨net, hg, hd⟩
    · rw [← sumL_neg, ← sumL_mul, ← sumL_sub, ← sumL_neg, ← sumL_mul, ← sumL_add]
      refine sumL_rel_le (Alike.converters h') ?_
      rintro p' hp' p _ ⟨e1, hC⟩
      exact conv_precise e1 hC ht hb hp'
  have h2 : -(if s.horizon = 0 then 0 else sumN s (firstWorth P)) -
      f * (if s.horizon = 0 then 0 else sumN s fun g d n => sumI n.storages fun _ i => |P.stored g d i 0|) ≤
      -(if s'.horizon = 0 then 0 else sumN s' (firstWorth P)) := by
    rw [hh]
    split_ifs
    · simp
    · have : (sumN s fun g d n => sumI n.storages fun c i => -(P.stored g d i 0 * c.initCapacity) - f * |P.stored g d i 0|) ≤
          sumN s' fun g d n => sumI n.storages fun c i => -(P.stored g d i 0 * c.initCapacity) := by
        apply sumN_alike_le h'
        intro g d n n' hN
        apply sumI_rel_le hN.storages
        intro i a b _ _ hab
        have h3 : P.stored g d i 0 * (a.initCapacity - b.initCapacity) ≤ |P.stored g d i 0| * f := by
          refine (le_abs_self _).trans ?_
          rw [abs_mul]
          exact mul_le_mul_of_nonneg_left hab.2.2.2.2.1.abs (abs_nonneg _)
        linarith
      simp only [sumI_sub, sumI_neg', sumI_mul] at this
      rw [sumN_sub, sumN_mul] at this
      have e1 : ∀ s : Study, (sumN s fun g d n => -sumI n.storages fun c i => P.stored g d i 0 * c.initCapacity) = -sumN s (firstWorth P) := by
        intro s
        unfold sumN
        rw [← sumL_neg]
        apply sumL_congr
        intro p _
        rw [← sumL_neg]
        rfl
      rw [e1, e1] at this
      exact this
  have e1 : worth s k P = (sumL (List.range s.horizon) fun t => sumN s (nodeWorth s k P t) - sumL s.converters (convWorth k P t)) -
      if s.horizon = 0 then 0 else sumN s (firstWorth P) := rfl
  have e2 : worth s' k' P = (sumL (List.range s'.horizon) fun t => sumN s' (nodeWorth s' k' P t) - sumL s'.converters (convWorth k' P t)) -
      if s'.horizon = 0 then 0 else sumN s' (firstWorth P) := rfl
  have e3 : dataVolume s' k' = sumL (List.range s'.horizon) fun t => (sumN s' fun _ _ n => nodeVolume k' t n) +
      sumL s'.converters fun p => fval p.2.max k' t := rfl
  have e4 : unitsWorth s k P = (sumL (List.range s.horizon) fun t => sumN s (nodeUnits s k P t) + sumL s.converters (convUnits k P t)) +
      if s.horizon = 0 then 0 else sumN s fun g d n => sumI n.storages fun _ i => |P.stored g d i 0| := rfl
  rw [e1, e2, e3, e4]
  simp only [sumL_add, sumL_sub, sumL_neg, sumL_mul] at h1 ⊢
  linarith

theorem drains_measured (h : Measured e f s k s' k') (hz : DrainsPriced s k P) : DrainsPriced s' k' P := by
  intro p' hp' g d r' hr' t ht h0
  obtain ⟨p, hp, e, hC⟩ := Alike.conv h hp'
  obtain ⟨⟨key, r⟩, hq, e', hs⟩ := forall₂_mem_right hC.sources hr'
  dsimp only at e' hs
  subst e'
  have ht : t < s.horizon := by rw [Alike.horizon h]; exact ht
  exact hz p hp g d r hq t ht (by rw [hs t ht]; exact h0)

/-- charging other costs for the same dispatch -/
theorem cost_precise (h : Measured e f s k s' k') {D : Dispatch} (hb : Bounds s' k' D) :
    cost s k D ≤ cost s' k' D + e * weighed s' (fun _ _ => 1) D := by
  have h' := h.symm
  have term : ∀ {x y q : ℚ}, 0 ≤ q → Near e y x → x * q ≤ y * q + e * (1 * q) := by
    intro x y q hq hxy
    have h1 := mul_le_mul_of_nonneg_right hxy.2 hq
    linarith
  unfold Spec.cost weighed
  rw [Alike.horizon h, ← sumL_mul, ← sumL_add]
  apply sumL_le
  intro t ht
  have ht := List.mem_range.mp ht
  rw [mul_add, add_add_add_comm]
  refine add_le_add ?_ ?_
  · rw [← sumL_mul, ← sumL_add]
    refine sumL_rel_le (Alike.networks h') ?_
    rintro ⟨g, net⟩ hg ⟨g', net'⟩ _ ⟨e1, hnet⟩
    dsimp only at e1 hnet ⊢
    subst e1
    rw [← sumL_mul, ← sumL_add]
    refine sumL_rel_le hnet ?_
    rintro ⟨d, n⟩ hd ⟨d', n'⟩ _ ⟨e1, hN⟩
    dsimp only at e1 hN ⊢
    subst e1
    have hn : HasNode s' g d n := ⟨net, hg, hd⟩
    have h1 : (sumI n'.consumptions fun c i => val c.cost k t * D.lol g d i t) ≤
        sumI n.consumptions fun c i => val c.cost k' t * D.lol g d i t + e * (1 * D.lol g d i t) := by
      apply sumI_rel_le hN.consumptions
      intro i a b hi _ hab
      exact term (hb.consumptions g d n hn i a hi t ht).1 (hab.1 t ht)
    have h2 : (sumI n'.productions fun c i => val c.cost k t * D.prod g d i t) ≤
        sumI n.productions fun c i => val c.cost k' t * D.prod g d i t + e * (1 * D.prod g d i t) := by
      apply sumI_rel_le hN.productions
      intro i a b hi _ hab
      exact term (hb.productions g d n hn i a hi t ht).1 (hab.1 t ht)
    have h3 : (sumI n'.storages fun c i => val c.cost k t * D.cap g d i t) ≤
        sumI n.storages fun c i => val c.cost k' t * D.cap g d i t + e * (1 * D.cap g d i t) := by
      apply sumI_rel_le hN.storages
      intro i a b hi _ hab
      exact term (hb.storages g d n hn i a hi t ht).1.1 (hab.2.2.2.1 t ht)
    have h4 : (sumI n'.links fun c i => val c.cost k t * D.link g d i t) ≤
        sumI n.links fun c i => val c.cost k' t * D.link g d i t + e * (1 * D.link g d i t) := by
      apply sumI_rel_le hN.links
      intro i a b hi _ hab
      exact term (hb.links g d n hn i a hi t ht).1 (hab.2.1 t ht)
    simp only [sumI_add, sumI_mul] at h1 h2 h3 h4
    unfold nodeCost
    simp only [Element.flow, sumI_mul]
    linarith
  · rw [← sumL_mul, ← sumL_add]
    refine sumL_rel_le (Alike.converters h') ?_
    rintro p' hp' p _ ⟨e1, hC⟩
    rw [← e1]
    exact term (hb.convDest p' hp' t ht).1 (hC.cost t ht)

/-- nothing does more than it can -/
theorem used_le_volume {D : Dispatch} (hb : Bounds s k D) : weighed s (fun _ _ => 1) D ≤ dataVolume s k := by
  unfold weighed dataVolume
  apply sumL_le
  intro t ht
  have ht := List.mem_range.mp ht
  refine add_le_add (sumL_le fun p hp => sumL_le fun q hq => ?_) (sumL_le fun p hp => ?_)
  · have hn : HasNode s p.1 q.1 q.2 := ⟨p.2, hp, hq⟩
    have h1 : (sumI q.2.consumptions fun _ i => 1 * (Element.load p.1 q.1 i).flow D t) ≤ sumI q.2.consumptions fun c _ => val c.quantity k t :=
      sumI_le fun c i hi => by rw [one_mul]; exact (hb.consumptions _ _ _ hn i c hi t ht).2
    have h2 : (sumI q.2.productions fun _ i => 1 * (Element.prod p.1 q.1 i).flow D t) ≤ sumI q.2.productions fun c _ => val c.quantity k t :=
      sumI_le fun c i hi => by rw [one_mul]; exact (hb.productions _ _ _ hn i c hi t ht).2
    have h3 : (sumI q.2.storages fun _ i => 1 * (Element.stor p.1 q.1 i).flow D t) ≤ sumI q.2.storages fun c _ => val c.capacity k t :=
      sumI_le fun c i hi => by rw [one_mul]; exact (hb.storages _ _ _ hn i c hi t ht).1.2
    have h4 : (sumI q.2.links fun _ i => 1 * (Element.link p.1 q.1 i).flow D t) ≤ sumI q.2.links fun c _ => val c.quantity k t :=
      sumI_le fun c i hi => by rw [one_mul]; exact (hb.links _ _ _ hn i c hi t ht).2
    unfold nodeVolume
    linarith
  · rw [one_mul]
    exact (hb.convDest p hp t ht).2

/-- with the same quantities, the same volume -/
theorem volume_same (h : Measured e 0 s k s' k') : dataVolume s k = dataVolume s' k' := by
  have near0 : ∀ {x y : ℚ}, Near 0 x y → x = y := fun h => le_antisymm (by linarith [h.1]) (by linarith [h.2])
  unfold dataVolume
  rw [← Alike.horizon h]
  apply sumL_congr
  intro t ht
  have ht := List.mem_range.mp ht
  congr 1
  · refine sumN_alike h (f := fun _ _ n => nodeVolume k t n) (f' := fun _ _ n => nodeVolume k' t n) ?_
    intro g d n n' hN
    beta_reduce
    unfold nodeVolume
    congr 1
    · congr 1
      · congr 1
        · exact sumI_rel hN.consumptions fun i a b _ _ hab => near0 (hab.2 t ht)
        · exact sumI_rel hN.productions fun i a b _ _ hab => near0 (hab.2 t ht)
      · exact sumI_rel hN.links fun i a b _ _ hab => near0 (hab.2.2 t ht)
    · exact sumI_rel hN.storages fun i a b _ _ hab => near0 (hab.1 t ht)
  · refine sumL_rel (Alike.converters h) ?_
    rintro p _ p' _ ⟨_, hC⟩
    exact near0 (hC.max t ht)

end Hadar
