import Verif.Proofs.StudyProps

/-!
# C92: comparing a series with a number
-/

namespace Hadar.Props

open Hadar Spec

variable {h n : ℕ} {r : Raw} {v : NumVal}

/-- C92 at full strength: each of the four comparisons of a series with a number says that it holds of every value of the series -/
def C92_claim (h n : ℕ) (r : Raw) (v : NumVal) : Prop :=
  ∀ x, (v.lt x = true ↔ Everywhere h n r (· < x)) ∧ (v.gt x = true ↔ Everywhere h n r (x < ·)) ∧
    (v.le x = true ↔ Everywhere h n r (· ≤ x)) ∧ (v.ge x = true ↔ Everywhere h n r (x ≤ ·))

/-- C92, as far as it holds: `<` and `>` say so of every value. `<=` and `>=` do not: they say so of some value only
(`C92_refuted`). -/
theorem C92_partial (hr : IsRaw r) (hc : (Factory.mk h n).create r = .ok v) (hh : 0 < h) (hn : 0 < n) (x : ℚ) :
    (v.lt x = true ↔ Everywhere h n r (· < x)) ∧ (v.gt x = true ↔ Everywhere h n r (x < ·)) ∧
      (v.le x = true ↔ ∃ i j q, i < n ∧ j < h ∧ Means h n r i j q ∧ q ≤ x) ∧
      (v.ge x = true ↔ ∃ i j q, i < n ∧ j < h ∧ Means h n r i j q ∧ x ≤ q) := by
  have hl := Factory.lt_iff hr hc hh hn x
  have hg := Factory.gt_iff hr hc hh hn x
  have some_of_not : ∀ (P : ℚ → Prop), ¬ Everywhere h n r P → ∃ i j q, i < n ∧ j < h ∧ Means h n r i j q ∧ ¬ P q := by
    intro P hP
    by_contra hne
    apply hP
    intro i j hi hj
    obtain ⟨q, -, hq⟩ := C01_broadcast h n r v hr hc i j hi hj
    refine ⟨q, hq, ?_⟩
    by_contra hPq
    exact hne ⟨i, j, q, hi, hj, hq, hPq⟩
  have not_of_some : ∀ (P : ℚ → Prop), (∃ i j q, i < n ∧ j < h ∧ Means h n r i j q ∧ ¬ P q) → ¬ Everywhere h n r P := by
    rintro P ⟨i, j, q, hi, hj, hq, hP⟩ he
    obtain ⟨q', hq', hP'⟩ := he i j hi hj
    rw [C01_broadcast_unique h n r i j hj q q' hq hq'] at hP
    exact hP hP'
  refine ⟨hl, hg, ?_, ?_⟩
  · have : v.le x = true ↔ ¬ v.gt x = true := by simp [NumVal.le]
    rw [this, hg]
    constructor
    · intro h1
      obtain ⟨i, j, q, hi, hj, hq, hP⟩ := some_of_not _ h1
      exact ⟨i, j, q, hi, hj, hq, le_of_not_gt hP⟩
    · rintro ⟨i, j, q, hi, hj, hq, hP⟩
      exact not_of_some _ ⟨i, j, q, hi, hj, hq, not_lt_of_ge hP⟩
  · have : v.ge x = true ↔ ¬ v.lt x = true := by simp [NumVal.ge]
    rw [this, hl]
    constructor
    · intro h1
      obtain ⟨i, j, q, hi, hj, hq, hP⟩ := some_of_not _ h1
      exact ⟨i, j, q, hi, hj, hq, le_of_not_gt hP⟩
    · rintro ⟨i, j, q, hi, hj, hq, hP⟩
      exact not_of_some _ ⟨i, j, q, hi, hj, hq, not_lt_of_ge hP⟩

/-- C92 holds at full strength of a single number -/
theorem C92_number_partial (hh : 0 < h) (hn : 0 < n) (q : ℚ) (hc : (Factory.mk h n).create (.num q) = .ok v) :
    C92_claim h n (.num q) v := by
  intro x
  obtain ⟨h1, h2, h3, h4⟩ := C92_partial (by intro v; simp) hc hh hn x
  refine ⟨h1, h2, h3.trans ⟨?_, ?_⟩, h4.trans ⟨?_, ?_⟩⟩
  · rintro ⟨i, j, q', -, -, hq, hx⟩ i' j' - -
    cases hq
    exact ⟨q, .number _ _ _, hx⟩
  · intro he
    obtain ⟨q', hq, hx⟩ := he 0 0 hn hh
    exact ⟨0, 0, q', hn, hh, hq, hx⟩
  · rintro ⟨i, j, q', -, -, hq, hx⟩ i' j' - -
    cases hq
    exact ⟨q, .number _ _ _, hx⟩
  · intro he
    obtain ⟨q', hq, hx⟩ := he 0 0 hn hh
    exact ⟨0, 0, q', hn, hh, hq, hx⟩

/-- C92 does not hold as stated: `[1, 9] <= 5` is true, and so is `[1, 9] >= 5` -/
theorem C92_refuted : ∃ (h n : ℕ) (r : Raw) (v : NumVal), 0 < h ∧ 0 < n ∧ IsRaw r ∧ (Factory.mk h n).create r = .ok v ∧
    v.le 5 = true ∧ v.ge 5 = true ∧ ¬ C92_claim h n r v := by
  refine ⟨2, 1, .array ⟨[2], [1, 9], rfl⟩, _, by decide, by decide, by intro v; simp, rfl, by decide +kernel, by decide +kernel, ?_⟩
  intro hcl
  have h1 := (hcl 5).2.2.1.mp (by decide +kernel)
  obtain ⟨q, hq, hx⟩ := h1 0 1 (by decide) (by decide)
  have : Means 2 1 (.array ⟨[2], [1, 9], rfl⟩) 0 1 9 := .perTime _ _ _ _ rfl rfl
  rw [C01_broadcast_unique 2 1 _ 0 1 (by decide) q 9 hq this] at hx
  norm_num at hx

/-- the hypotheses of `C92_partial`: one value per scenario -/
example : ∃ v, (Factory.mk 2 2).create (.array ⟨[2, 1], [10, 20], rfl⟩) = .ok v ∧ v.lt 21 = true ∧ v.gt 10 = false ∧
    v.le 10 = true ∧ v.ge 21 = false := ⟨_, rfl, by decide +kernel⟩

/-! ### The theorems applied to concrete cases -/

example (x : ℚ) := C92_partial (h := 2) (n := 2) (r := .array ⟨[2, 1], [10, 20], rfl⟩)
  (v := ⟨.column ⟨[2, 1], [10, 20], rfl⟩, 2, 2⟩) (by simp [IsRaw]) (by decide +kernel) (by decide) (by decide) x

example : C92_claim 3 2 (.num 7) ⟨.scalar 7, 3, 2⟩ := C92_number_partial (by decide) (by decide) 7 rfl

end Hadar.Props
