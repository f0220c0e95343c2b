import Verif.Spec.Whole
import Verif.Proofs.Worth
import Mathlib.Data.Rat.Floor

/-!
# Lemmas for data in whole units
-/

namespace Hadar

open Spec

variable {u v : ℚ}

theorem Spec.MultipleOf.zero : MultipleOf u 0 := ⟨0, by simp⟩

theorem Spec.MultipleOf.add {a b : ℚ} (ha : MultipleOf u a) (hb : MultipleOf u b) : MultipleOf u (a + b) := by
  obtain ⟨x, rfl⟩ := ha
  obtain ⟨y, rfl⟩ := hb
  exact ⟨x + y, by push_cast; ring⟩

theorem Spec.MultipleOf.sub {a b : ℚ} (ha : MultipleOf u a) (hb : MultipleOf u b) : MultipleOf u (a - b) := by
  obtain ⟨x, rfl⟩ := ha
  obtain ⟨y, rfl⟩ := hb
  exact ⟨x - y, by push_cast; ring⟩

theorem Spec.MultipleOf.mul {a b : ℚ} (ha : MultipleOf u a) (hb : MultipleOf v b) : MultipleOf (u * v) (a * b) := by
  obtain ⟨x, rfl⟩ := ha
  obtain ⟨y, rfl⟩ := hb
  exact ⟨x * y, by push_cast; ring⟩

theorem Spec.MultipleOf.min {a b : ℚ} (ha : MultipleOf u a) (hb : MultipleOf u b) : MultipleOf u (min a b) := by
  rcases min_choice a b with h | h <;> rw [h] <;> assumption

theorem Spec.MultipleOf.max {a b : ℚ} (ha : MultipleOf u a) (hb : MultipleOf u b) : MultipleOf u (max a b) := by
  rcases max_choice a b with h | h <;> rw [h] <;> assumption

theorem Spec.MultipleOf.sumL {α : Type} {l : List α} {f : α → ℚ} (h : ∀ a ∈ l, MultipleOf u (f a)) : MultipleOf u (sumL l f) := by
  induction l with
  | nil => exact .zero
  | cons a l ih =>
    show MultipleOf u ((List.map f (a :: l)).sum)
    rw [List.map_cons, List.sum_cons]
    exact (h a List.mem_cons_self).add (ih fun b hb => h b (List.mem_cons_of_mem _ hb))

theorem Spec.MultipleOf.sumI {α : Type} {l : List α} {f : α → ℕ → ℚ} (h : ∀ a ∈ l, ∀ i, MultipleOf u (f a i)) :
    MultipleOf u (sumI l f) := by
  rw [sumI_eq]
  exact .sumL fun a ha => h _ (mem_of_mem_zipIdx ha) _

/-- a price in whole units -/
def down (u x : ℚ) : ℚ := ⌊x / u⌋ * u

theorem down_multiple (u x : ℚ) : MultipleOf u (down u x) := ⟨_, rfl⟩

theorem down_zero (u : ℚ) : down u 0 = 0 := by simp [down]

theorem down_mono (hu : 0 < u) {x y : ℚ} (h : x ≤ y) : down u x ≤ down u y := by
  unfold down
  apply mul_le_mul_of_nonneg_right _ hu.le
  exact_mod_cast Int.floor_mono (div_le_div_of_nonneg_right h hu.le)

theorem down_add (hu : 0 < u) {c : ℚ} (hc : MultipleOf u c) (x : ℚ) : down u (c + x) = c + down u x := by
  obtain ⟨z, rfl⟩ := hc
  unfold down
  rw [add_div, mul_div_cancel_right₀ _ hu.ne', Int.floor_intCast_add]
  push_cast
  ring

/-- rounding prices keeps what is best -/
theorem best_down (hu : 0 < u) {c a b x top : ℚ} (hc : MultipleOf u c) (h : Best (c + a - b) x top) :
    Best (c + down u a - down u b) x top := by
  refine ⟨fun hp => h.1 ?_, fun hn => h.2 ?_⟩
  · by_contra hcon
    have := down_mono hu (show c + a ≤ b by linarith)
    rw [down_add hu hc] at this
    linarith
  · by_contra hcon
    have := down_mono hu (show b ≤ c + a by linarith)
    rw [down_add hu hc] at this
    linarith

theorem best_down' (hu : 0 < u) {c b x top : ℚ} (hc : MultipleOf u c) (h : Best (c - b) x top) : Best (c - down u b) x top := by
  have := best_down hu (a := 0) hc (by rwa [add_zero])
  rwa [down_zero, add_zero] at this

theorem best_down'' (hu : 0 < u) {a b x top : ℚ} (h : Best (a - b) x top) : Best (down u a - down u b) x top := by
  have := best_down hu (c := 0) .zero (by rwa [zero_add])
  rwa [zero_add] at this

/-- prices in whole units -/
def Spec.Prices.down (u : ℚ) (P : Prices) : Prices where
  node g d t := Hadar.down u (P.node g d t)
  stored g d i t := Hadar.down u (P.stored g d i t)
  used c q t := Hadar.down u (P.used c q t)

theorem storedNext_down (P : Prices) (h : ℕ) (g d : String) (i t : ℕ) :
    (P.down u).storedNext h g d i t = down u (P.storedNext h g d i t) := by
  unfold Prices.storedNext
  split_ifs
  · rfl
  · exact (down_zero u).symm

variable {s : Study} {k : ℕ} {D : Dispatch} {P : Prices}

/-- with costs in whole units, prices rounded down are prices too -/
theorem equilibrium_down (hu : 0 < u) (hc : CostsIn u s k) (h1 : OneForOne s k) (he : Equilibrium s k D P) :
    Equilibrium s k D (P.down u) where
  consumptions g d n hn i c hi t ht :=
    best_down' hu (hc.consumptions g d n hn c (List.mem_of_getElem? hi) t ht) (he.consumptions g d n hn i c hi t ht)
  productions g d n hn i c hi t ht :=
    best_down' hu (hc.productions g d n hn c (List.mem_of_getElem? hi) t ht) (he.productions g d n hn i c hi t ht)
  links g d n hn i c hi t ht := best_down hu (hc.links g d n hn c (List.mem_of_getElem? hi) t ht) (he.links g d n hn i c hi t ht)
  held g d n hn i c hi t ht := by
    rw [storedNext_down]
    exact best_down hu (hc.storages g d n hn c (List.mem_of_getElem? hi) t ht) (he.held g d n hn i c hi t ht)
  filled g d n hn i c hi t ht := by
    have := he.filled g d n hn i c hi t ht
    rw [h1.storages g d n hn c (List.mem_of_getElem? hi) t ht, one_mul] at this ⊢
    exact best_down'' hu this
  emptied g d n hn i c hi t ht := best_down'' hu (he.emptied g d n hn i c hi t ht)
  taken p hp g d r hr t ht := by
    obtain ⟨q, e, hq⟩ := h1.converters p hp
    rw [e, List.mem_singleton] at hr
    have hr1 : val r k t = 1 := by rw [show r = q.2 from congrArg Prod.snd hr]; exact hq t ht
    refine ⟨fun h0 => ?_, fun h0 => absurd (hr1.symm.trans h0) one_ne_zero⟩
    have := (he.taken p hp g d r (by rw [e, hr]; exact List.mem_singleton.2 rfl) t ht).1 h0
    rw [hr1, one_mul] at this ⊢
    exact best_down'' hu this
  given p hp t ht := by
    obtain ⟨q, e, hq⟩ := h1.converters p hp
    have := he.given p hp t ht
    simp only [e, sumL, List.map_cons, List.map_nil, List.sum_cons, List.sum_nil, add_zero] at this ⊢
    exact best_down hu (hc.converters p hp t ht) this

theorem prices_down (u : ℚ) (P : Prices) : PricesIn u (P.down u) :=
  ⟨fun _ _ _ => down_multiple _ _, fun _ _ _ _ => down_multiple _ _, fun _ _ _ => down_multiple _ _⟩

theorem Spec.PricesIn.storedNext (hP : PricesIn u P) (h : ℕ) (g d : String) (i t : ℕ) : MultipleOf u (P.storedNext h g d i t) := by
  unfold Prices.storedNext
  split_ifs
  · exact hP.stored _ _ _ _
  · exact .zero

/-- with prices in whole units, what a study is worth is in whole units -/
theorem worth_multiple (hc : CostsIn u s k) (hq : QuantitiesIn v s k) (h1 : OneForOne s k) (hP : PricesIn u P) :
    MultipleOf (u * v) (worth s k P) := by
  unfold worth
  refine .sub (.sumL fun t ht => .sub (.sumL fun p hp => .sumL fun q hq' => ?_) (.sumL fun p hp => ?_)) ?_
  · have ht := List.mem_range.1 ht
    have hn : HasNode s p.1 q.1 q.2 := ⟨p.2, hp, hq'⟩
    unfold nodeWorth
    refine .sub (.sub (.sub (.sub (.sub (.sumI fun c hm i => ?_) (.sumI fun c hm i => ?_)) (.sumI fun c hm i => ?_))
      (.sumI fun c hm i => ?_)) (.sumI fun c hm i => ?_)) (.sumI fun c hm i => ?_)
    · exact ((hP.node _ _ _).min (hc.consumptions _ _ _ hn c hm t ht)).mul (hq.consumptions _ _ _ hn c hm t ht)
    · exact (MultipleOf.zero.max ((hP.node _ _ _).sub (hc.productions _ _ _ hn c hm t ht))).mul (hq.productions _ _ _ hn c hm t ht)
    · exact (MultipleOf.zero.max (((hP.node _ _ _).sub (hP.node _ _ _)).sub (hc.links _ _ _ hn c hm t ht))).mul
        (hq.links _ _ _ hn c hm t ht)
    · exact (MultipleOf.zero.max (((hP.storedNext _ _ _ _ _).sub (hP.stored _ _ _ _)).sub (hc.storages _ _ _ hn c hm t ht))).mul
        ((hq.storages _ _ _ hn c hm).2 t ht).1
    · rw [h1.storages _ _ _ hn c hm t ht, one_mul]
      exact (MultipleOf.zero.max ((hP.stored _ _ _ _).sub (hP.node _ _ _))).mul ((hq.storages _ _ _ hn c hm).2 t ht).2.1
    · exact (MultipleOf.zero.max ((hP.node _ _ _).sub (hP.stored _ _ _ _))).mul ((hq.storages _ _ _ hn c hm).2 t ht).2.2
  · have ht := List.mem_range.1 ht
    obtain ⟨x, e, hx⟩ := h1.converters p hp
    unfold convWorth
    rw [e]
    refine .add ((MultipleOf.zero.max ((((hP.node _ _ _)).sub (.sumL fun _ _ => hP.used _ _ _)).sub
      (hc.converters p hp t ht))).mul (hq.converters p hp t ht)) (.sumL fun y hy => ?_)
    rw [List.mem_singleton.1 hy, hx t ht, one_mul, div_one]
    exact (MultipleOf.zero.max ((hP.used _ _ _).sub (hP.node _ _ _))).mul (hq.converters p hp t ht)
  · split_ifs
    · exact .zero
    · refine .sumL fun p hp => .sumL fun q hq' => .sumI fun c hm i => ?_
      exact (hP.stored _ _ _ _).mul (hq.storages _ _ _ ⟨p.2, hp, hq'⟩ c hm).1

end Hadar
