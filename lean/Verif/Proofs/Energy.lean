import Verif.Spec.Energy
import Verif.Proofs.Prices

/-!
# Accounts of energy
-/

namespace Hadar

open Spec

variable {s : Study} {k : ℕ} {D : Dispatch}

theorem total_eq (f : String → String → InputNode → ℚ) : total s f = sumN s f := rfl

theorem account_self (hi : StudyInv s) (hdest : ∀ p ∈ s.converters, ∃ n, HasNode s p.2.destNetwork p.2.destNode n) {t : ℕ}
    (hD : ∀ g d n, HasNode s g d n → incoming s D g d n t + selfFlow D g d n t = outgoing s k D g d n t) :
    served s k D t + put s D t + used s D t =
      produced s D t + released s D t + converted s D t + total s fun g d n => selfFlow D g d n t := by
  have h1 := sumN_imports hi D (fun _ _ => 1) t
  have h2 := sumN_from hi hdest D (fun _ _ => 1) t
  have h3 := sumN_to hi D (fun _ _ => 1) t
  simp only [one_mul] at h1 h2 h3
  have h4 : (sumN s fun g d n => incoming s D g d n t + selfFlow D g d n t) = sumN s fun g d n => outgoing s k D g d n t :=
    sumN_congr hD
  unfold incoming outgoing at h4
  simp only [sumN_add] at h4
  unfold served put used produced released converted
  simp only [total_eq]
  linarith

theorem account_step (hi : StudyInv s) (hdest : ∀ p ∈ s.converters, ∃ n, HasNode s p.2.destNetwork p.2.destNode n)
    (hD : Balanced s k D) {t : ℕ} (ht : t < s.horizon) :
    served s k D t + put s D t + used s D t = produced s D t + released s D t + converted s D t := by
  have h1 := sumN_imports hi D (fun _ _ => 1) t
  have h2 := sumN_from hi hdest D (fun _ _ => 1) t
  have h3 := sumN_to hi D (fun _ _ => 1) t
  simp only [one_mul] at h1 h2 h3
  have h4 : (sumN s fun g d n => incoming s D g d n t) = sumN s fun g d n => outgoing s k D g d n t :=
    sumN_congr fun g d n hn => hD g d n hn t ht
  unfold incoming outgoing at h4
  simp only [sumN_add] at h4
  unfold served put used produced released converted
  simp only [total_eq]
  linarith

theorem level_sum {g d : String} {i : ℕ} {c : Storage} {h : ℕ} (he : ∀ t < h, Evolves k D g d i c t) :
    (sumL (List.range h) fun t => D.fout g d i t) + levelBefore D g d i c.initCapacity h +
      (sumL (List.range h) fun t => (1 - val c.eff k t) * D.fin g d i t) =
    c.initCapacity + sumL (List.range h) fun t => D.fin g d i t := by
  induction h with
  | zero => simp [sumL, levelBefore]
  | succ h ih =>
    have ih := ih fun t ht => he t (by omega)
    have e := he h (by omega)
    unfold Evolves at e
    rw [List.range_succ, sumL_append, sumL_append, sumL_append]
    have h1 : ∀ f : ℕ → ℚ, sumL [h] f = f h := fun f => by simp [sumL]
    rw [h1, h1, h1]
    have h2 : levelBefore D g d i c.initCapacity (h + 1) = D.cap g d i h := rfl
    rw [h2, e]
    linarith

theorem account_storages (hD : StorageOk s k D) :
    overTime s (released s D) + heldLast s D + overTime s (lost s k D) = heldFirst s + overTime s (put s D) := by
  unfold overTime released heldLast lost heldFirst put
  simp only [total_eq]
  rw [sumN_sumL_range, sumN_sumL_range, sumN_sumL_range]
  rw [← sumN_add, ← sumN_add, ← sumN_add]
  apply sumN_congr
  intro g d n hn
  simp only [sumI_eq]
  rw [sumL_swap, sumL_swap (l := List.range s.horizon), sumL_swap (l := List.range s.horizon), ← sumL_add, ← sumL_add, ← sumL_add]
  apply sumL_congr
  rintro ⟨c, i⟩ hc
  exact level_sum fun t ht => hD g d n hn i c (mem_zipIdx_iff.mp hc) t ht

theorem account_total (hi : StudyInv s) (hdest : ∀ p ∈ s.converters, ∃ n, HasNode s p.2.destNetwork p.2.destNode n)
    (hD : Spec.Feasible s k D) :
    overTime s (served s k D) + overTime s (used s D) + overTime s (lost s k D) + heldLast s D =
      overTime s (produced s D) + overTime s (converted s D) + heldFirst s := by
  have h1 : overTime s (fun t => served s k D t + put s D t + used s D t) =
      overTime s fun t => produced s D t + released s D t + converted s D t :=
    sumL_congr fun t ht => account_step hi hdest hD.balanced (List.mem_range.mp ht)
  have h2 := account_storages hD.storages
  unfold overTime at h1 h2 ⊢
  simp only [sumL_add] at h1
  linarith

theorem converted_le (hi : StudyInv s) (hb : Bounds s k D) (hD : RatiosOk s k D) (hc : ConvertersLose s k) {t : ℕ}
    (ht : t < s.horizon) : converted s D t ≤ used s D t := by
  unfold converted used
  apply sumL_le
  intro p hp
  obtain ⟨hpos, h1⟩ := hc p hp t ht
  have h0 := (hb.convDest p hp t ht).1
  have e : (sumL p.2.srcRatios fun q => D.convSrc p.1 (srcPair q.1) t) =
      D.convDest p.1 t * sumL p.2.srcRatios fun q => 1 / val q.2 k t := by
    rw [← sumL_mul]
    apply sumL_congr
    intro q hq
    obtain ⟨g, d, n, e, hn⟩ := (hi.convs p hp).sources q.1 (List.mem_map.mpr ⟨q, hq, rfl⟩)
    have := hD p hp g d q.2 (by rw [← e]; exact hq) t ht
    have h0 := hpos q hq
    rw [e]
    simp only [srcPair]
    rw [← this]
    field_simp
  rw [e]
  nlinarith

theorem sumL_nonneg' {α : Type} {l : List α} {f : α → ℚ} (h : ∀ a ∈ l, 0 ≤ f a) : 0 ≤ sumL l f := by
  rw [← sumL_zero l]
  exact sumL_le h

theorem lost_nonneg (hb : Bounds s k D) (hg : NoGain s k) {t : ℕ} (ht : t < s.horizon) : 0 ≤ lost s k D t := by
  apply sumL_nonneg'
  rintro ⟨g, net⟩ hg'
  apply sumL_nonneg'
  rintro ⟨d, n⟩ hd
  apply sumL_nonneg'
  rintro ⟨c, i⟩ hc
  have hn : HasNode s g d n := ⟨net, hg', hd⟩
  have hc := mem_zipIdx_iff.mp hc
  exact mul_nonneg (by linarith [hg g d n hn c (mem_of_getElem?_some hc) t ht]) (hb.storages g d n hn i c hc t ht).2.1.1

theorem heldLast_nonneg (hb : Bounds s k D) (hh : 0 < s.horizon) : 0 ≤ heldLast s D := by
  apply sumL_nonneg'
  rintro ⟨g, net⟩ hg'
  apply sumL_nonneg'
  rintro ⟨d, n⟩ hd
  apply sumL_nonneg'
  rintro ⟨c, i⟩ hc
  have hn : HasNode s g d n := ⟨net, hg', hd⟩
  have hc := mem_zipIdx_iff.mp hc
  obtain ⟨h, e⟩ : ∃ h, s.horizon = h + 1 := ⟨s.horizon - 1, by omega⟩
  dsimp only
  rw [e]
  exact (hb.storages g d n hn i c hc h (by omega)).1.1

end Hadar
