import Verif.Spec.AtOnce
import Verif.Proofs.Energy

/-!
# Storages that fill and empty at the same time (helper lemmas for C93)
-/

namespace Hadar

open Spec

variable {s : Study} {k : ℕ} {D : Dispatch} {w : String → String → ℕ → ℕ → Bool}

theorem Spec.AtOnce.price {P : Prices} (he : Equilibrium s k D P) {g d n i c t} (hn : HasNode s g d n) (hc : n.storages[i]? = some c)
    (ht : t < s.horizon) (h0 : 0 ≤ val c.eff k t) (h1 : val c.eff k t < 1) (ha : AtOnce D g d i t) :
    P.stored g d i t ≤ 0 ∧ P.node g d t ≤ 0 := by
  have hf := (he.filled g d n hn i c hc t ht).1
  have ho := (he.emptied g d n hn i c hc t ht).1
  have e1 : P.node g d t ≤ val c.eff k t * P.stored g d i t := by
    by_contra hh
    exact ha.1.ne' (hf (by linarith))
  have e2 : P.stored g d i t ≤ P.node g d t := by
    by_contra hh
    exact ha.2.ne' (ho (by linarith))
  have e3 : P.stored g d i t ≤ 0 := by
    by_contra hh
    nlinarith [lt_of_not_ge hh]
  exact ⟨e3, by nlinarith⟩

theorem netted_min {x y : ℚ} (hx : 0 ≤ x) (hy : 0 ≤ y) (b : Bool) :
    0 ≤ (if b then min x y else 0) ∧ (if b then min x y else 0) ≤ x ∧ (if b then min x y else 0) ≤ y := by
  cases b
  · simpa using ⟨hx, hy⟩
  · simpa using ⟨hx, hy⟩

theorem netted_feasible (hw : Lossless w s k) (hD : Spec.Feasible s k D) : Spec.Feasible s k (D.netted w) := by
  refine ⟨⟨hD.bounds.consumptions, hD.bounds.productions, ?_, hD.bounds.links, hD.bounds.convSrc, hD.bounds.convDest⟩, ?_, ?_,
    hD.ratios⟩
  · intro g d n hn i c hc t ht
    obtain ⟨h1, h2, h3⟩ := hD.bounds.storages g d n hn i c hc t ht
    obtain ⟨m1, m2, m3⟩ := netted_min h2.1 h3.1 (w g d i t)
    refine ⟨h1, ⟨?_, ?_⟩, ?_, ?_⟩ <;> simp only [Dispatch.netted] <;> linarith [h2.2, h3.2]
  · intro g d n hn t ht
    have hb := hD.balanced g d n hn t ht
    have e1 : incoming s (D.netted w) g d n t = incoming s D g d n t - sumI n.storages fun _ i =>
        if w g d i t then min (D.fin g d i t) (D.fout g d i t) else 0 := by
      have : (sumI n.storages fun _ i => (D.netted w).fout g d i t) = (sumI n.storages fun _ i => D.fout g d i t) -
          sumI n.storages fun _ i => if w g d i t then min (D.fin g d i t) (D.fout g d i t) else 0 := by
        rw [← sumI_sub]; rfl
      have hi : imports s (D.netted w) g d t = imports s D g d t := rfl
      have hf : fromConverters s (D.netted w) g d t = fromConverters s D g d t := rfl
      have hp : (sumI n.productions fun _ i => (D.netted w).prod g d i t) = sumI n.productions fun _ i => D.prod g d i t := rfl
      unfold incoming
      rw [this, hi, hf, hp]
      ring
    have e2 : outgoing s k (D.netted w) g d n t = outgoing s k D g d n t - sumI n.storages fun _ i =>
        if w g d i t then min (D.fin g d i t) (D.fout g d i t) else 0 := by
      have : (sumI n.storages fun _ i => (D.netted w).fin g d i t) = (sumI n.storages fun _ i => D.fin g d i t) -
          sumI n.storages fun _ i => if w g d i t then min (D.fin g d i t) (D.fout g d i t) else 0 := by
        rw [← sumI_sub]; rfl
      have hf : toConverters s (D.netted w) g d t = toConverters s D g d t := rfl
      have hp : (sumI n.links fun _ i => (D.netted w).link g d i t) = sumI n.links fun _ i => D.link g d i t := rfl
      have hq : (sumI n.consumptions fun c i => val c.quantity k t - (D.netted w).lol g d i t) =
        sumI n.consumptions fun c i => val c.quantity k t - D.lol g d i t := rfl
      unfold outgoing
      rw [this, hf, hp, hq]
      ring
    rw [e1, e2, hb]
  · intro g d n hn i c hc t ht
    have h := hD.storages g d n hn i c hc t ht
    unfold Evolves at h ⊢
    have el : levelBefore (D.netted w) g d i c.initCapacity t = levelBefore D g d i c.initCapacity t := by cases t <;> rfl
    rw [el]
    cases hwv : w g d i t with
    | false => simp only [Dispatch.netted, hwv]; simpa using h
    | true =>
      have := hw g d n hn i c hc t ht hwv
      simp only [Dispatch.netted, hwv, if_true]
      rw [this] at h ⊢
      linarith

theorem netted_cost : cost s k (D.netted w) = cost s k D := rfl

theorem netted_once {g d : String} {i t : ℕ} (hw : w g d i t = true) : ¬ AtOnce (D.netted w) g d i t := by
  rintro ⟨h1, h2⟩
  simp only [Dispatch.netted, hw, if_true] at h1 h2
  rcases min_choice (D.fin g d i t) (D.fout g d i t) with e | e <;> rw [e] at h1 h2 <;> linarith

end Hadar
