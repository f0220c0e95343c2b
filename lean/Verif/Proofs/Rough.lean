import Verif.Spec.Rough
import Verif.Proofs.Energy
import Verif.Proofs.Tolerance

/-!
# Accounts of results with small errors
-/

namespace Hadar

open Spec

variable {s : Study} {k : ℕ} {D : Dispatch} {e : ℚ}

theorem near_sumL {α : Type} {l : List α} {f f' w : α → ℚ} (h : ∀ a ∈ l, Near (w a) (f a) (f' a)) :
    Near (sumL l w) (sumL l f) (sumL l f') := by
  constructor
  · rw [← sumL_add]; exact sumL_le fun a ha => (h a ha).1
  · rw [← sumL_add]; exact sumL_le fun a ha => (h a ha).2

theorem near_sumN {f f' w : String → String → InputNode → ℚ} (h : ∀ g d n, HasNode s g d n → Near (w g d n) (f g d n) (f' g d n)) :
    Near (sumN s w) (sumN s f) (sumN s f') :=
  near_sumL fun p hp => near_sumL fun q hq => h _ _ _ ⟨p.2, hp, hq⟩

theorem near_step (hi : StudyInv s) (hdest : ∀ p ∈ s.converters, ∃ n, HasNode s p.2.destNetwork p.2.destNode n)
    (hD : NearFeasible e s k D) {t : ℕ} (ht : t < s.horizon) :
    Near (nodeNumber s * e) (served s k D t + put s D t + used s D t) (produced s D t + released s D t + converted s D t) := by
  have h1 := sumN_imports hi D (fun _ _ => 1) t
  have h2 := sumN_from hi hdest D (fun _ _ => 1) t
  have h3 := sumN_to hi D (fun _ _ => 1) t
  simp only [one_mul] at h1 h2 h3
  have h4 : Near (sumN s fun _ _ _ => e) (sumN s fun g d n => incoming s D g d n t) (sumN s fun g d n => outgoing s k D g d n t) :=
    near_sumN fun g d n hn => hD.balanced g d n hn t ht
  have h5 : (sumN s fun _ _ _ => e) = nodeNumber s * e := by
    have := sumN_mul s e fun _ _ _ => 1
    simp only [mul_one] at this
    rw [this, mul_comm]; rfl
  rw [h5] at h4
  unfold incoming outgoing at h4
  simp only [sumN_add] at h4
  unfold served put used produced released converted
  simp only [total_eq]
  obtain ⟨h6, h7⟩ := h4
  constructor <;> linarith

theorem near_level {g d : String} {i : ℕ} {c : Storage} {h : ℕ}
    (he : ∀ t < h, Near e (D.cap g d i t) (levelBefore D g d i c.initCapacity t + val c.eff k t * D.fin g d i t - D.fout g d i t)) :
    Near (h * e) ((sumL (List.range h) fun t => D.fout g d i t) + levelBefore D g d i c.initCapacity h +
      (sumL (List.range h) fun t => (1 - val c.eff k t) * D.fin g d i t))
    (c.initCapacity + sumL (List.range h) fun t => D.fin g d i t) := by
  induction h with
  | zero => simp [Near, sumL, levelBefore]
  | succ h ih =>
    have ih := ih fun t ht => he t (by omega)
    have e := he h (by omega)
    rw [List.range_succ, sumL_append, sumL_append, sumL_append]
    have h1 : ∀ f : ℕ → ℚ, sumL [h] f = f h := fun f => by simp [sumL]
    rw [h1, h1, h1]
    have h2 : levelBefore D g d i c.initCapacity (h + 1) = D.cap g d i h := rfl
    rw [h2]
    obtain ⟨a1, a2⟩ := ih
    obtain ⟨b1, b2⟩ := e
    push_cast
    constructor <;> linarith

theorem near_storages (hD : NearFeasible e s k D) :
    Near (s.horizon * storageNumber s * e) (overTime s (released s D) + heldLast s D + overTime s (lost s k D))
      (heldFirst s + overTime s (put s D)) := by
  have hw : s.horizon * storageNumber s * e = sumN s fun _ _ n => sumL n.storages.zipIdx fun _ => (s.horizon : ℚ) * e := by
    have h1 := sumN_mul s (s.horizon * e) fun _ _ n => sumL n.storages.zipIdx fun _ => 1
    have h2 : (sumN s fun _ _ n => (s.horizon : ℚ) * e * sumL n.storages.zipIdx fun _ => 1) =
        sumN s fun _ _ n => sumL n.storages.zipIdx fun _ => (s.horizon : ℚ) * e :=
      sumN_congr fun g d n _ => by rw [← sumL_mul]; simp
    rw [← h2, h1]
    have h3 : storageNumber s = sumN s fun _ _ n => sumL n.storages.zipIdx fun _ => 1 := by
      unfold storageNumber
      rw [total_eq]
      exact sumN_congr fun g d n _ => by rw [sumI_eq]
    rw [h3]; ring
  rw [hw]
  unfold overTime released heldLast lost heldFirst put
  simp only [total_eq]
  rw [sumN_sumL_range, sumN_sumL_range, sumN_sumL_range]
  rw [← sumN_add, ← sumN_add, ← sumN_add]
  apply near_sumN
  intro g d n hn
  simp only [sumI_eq]
  rw [sumL_swap, sumL_swap (l := List.range s.horizon), sumL_swap (l := List.range s.horizon), ← sumL_add, ← sumL_add, ← sumL_add]
  apply near_sumL
  rintro ⟨c, i⟩ hc
  exact near_level fun t ht => hD.storages g d n hn i c (mem_zipIdx_iff.mp hc) t ht

theorem near_total (hi : StudyInv s) (hdest : ∀ p ∈ s.converters, ∃ n, HasNode s p.2.destNetwork p.2.destNode n)
    (hD : NearFeasible e s k D) :
    Near (s.horizon * (nodeNumber s + storageNumber s) * e)
      (overTime s (served s k D) + overTime s (used s D) + overTime s (lost s k D) + heldLast s D)
      (overTime s (produced s D) + overTime s (converted s D) + heldFirst s) := by
  have h1 : Near (overTime s fun _ => nodeNumber s * e) (overTime s (fun t => served s k D t + put s D t + used s D t))
      (overTime s fun t => produced s D t + released s D t + converted s D t) :=
    near_sumL fun t ht => near_step hi hdest hD (List.mem_range.mp ht)
  have h0 : (overTime s fun _ => nodeNumber s * e) = s.horizon * (nodeNumber s * e) := by
    simp [overTime, sumL]
  have h2 := near_storages hD
  rw [h0] at h1
  unfold overTime at h1 h2 ⊢
  simp only [sumL_add] at h1
  obtain ⟨a1, a2⟩ := h1
  obtain ⟨b1, b2⟩ := h2
  constructor <;> linarith

end Hadar
