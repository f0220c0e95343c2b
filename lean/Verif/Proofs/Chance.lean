import Mathlib.Data.Nat.Choose.Sum
import Mathlib.Tactic.Ring
import Mathlib.Tactic.FieldSimp
import Mathlib.Tactic.Linarith
import Verif.Spec.Chance
import Verif.Proofs.Stages

/-! # Lemmas on chances of faults -/

namespace Hadar

open Hadar.Spec

/-- lists of `k` items of a set -/
def listsOf {α : Type} [DecidableEq α] (S : Finset α) : ℕ → Finset (List α)
  | 0 => {[]}
  | k + 1 => (S ×ˢ listsOf S k).image fun p => p.1 :: p.2

theorem mem_listsOf {α : Type} [DecidableEq α] {S : Finset α} {k : ℕ} {l : List α} :
    l ∈ listsOf S k ↔ l.length = k ∧ ∀ x ∈ l, x ∈ S := by
  induction k generalizing l with
  | zero => simp [listsOf, List.length_eq_zero_iff]; rintro rfl; simp
  | succ k ih =>
    simp only [listsOf, Finset.mem_image, Finset.mem_product]
    constructor
    · rintro ⟨⟨x, m⟩, ⟨h1, h2⟩, rfl⟩
      rw [ih] at h2
      simp [h2.1, h1]
      exact h2.2
    · rintro ⟨h1, h2⟩
      match l, h1 with
      | x :: m, h1 =>
        refine ⟨(x, m), ⟨h2 x List.mem_cons_self, ih.mpr ⟨by simpa using h1, fun y hy => h2 y (List.mem_cons_of_mem _ hy)⟩⟩, rfl⟩

theorem sum_listsOf_succ {α : Type} [DecidableEq α] (S : Finset α) (k : ℕ) (φ : List α → ℚ) :
    ∑ l ∈ listsOf S (k + 1), φ l = ∑ x ∈ S, ∑ l ∈ listsOf S k, φ (x :: l) := by
  rw [listsOf, Finset.sum_image, Finset.sum_product]
  rintro ⟨x, l⟩ - ⟨y, m⟩ - h
  simpa using h

theorem sum_listsOf_one {α : Type} [DecidableEq α] (S : Finset α) (k : ℕ) : ∑ _l ∈ listsOf S k, (1 : ℚ) = (S.card : ℚ) ^ k := by
  induction k with
  | zero => simp [listsOf]
  | succ k ih => rw [sum_listsOf_succ]; simp only [ih, Finset.sum_const, nsmul_eq_mul]; ring

variable (P : ℤ × ℤ → Bool)

theorem sum_listsOf_count (S : Finset (ℤ × ℤ)) (k : ℕ) :
    (S.card : ℚ) * ∑ l ∈ listsOf S k, ((l.filter P).length : ℚ) =
      k * (S.card : ℚ) ^ k * ((S.filter (P · = true)).card : ℚ) := by
  induction k with
  | zero => simp [listsOf]
  | succ k ih =>
    have e : ∀ x ∈ S, ∑ l ∈ listsOf S k, (((x :: l).filter P).length : ℚ) =
        (if P x = true then (1 : ℚ) else 0) * (S.card : ℚ) ^ k + ∑ l ∈ listsOf S k, ((l.filter P).length : ℚ) := by
      intro x _
      rw [← sum_listsOf_one, Finset.mul_sum, ← Finset.sum_add_distrib]
      refine Finset.sum_congr rfl fun l _ => ?_
      rw [List.filter_cons]
      split_ifs
      · rw [List.length_cons]; push_cast; ring
      · ring
    rw [sum_listsOf_succ, Finset.sum_congr rfl e, Finset.sum_add_distrib, ← Finset.sum_mul, Finset.sum_const,
      nsmul_eq_mul]
    have h1 : ∑ x ∈ S, (if P x = true then (1 : ℚ) else 0) = ((S.filter (P · = true)).card : ℚ) := by
      rw [Finset.card_filter]; push_cast; rfl
    rw [h1, ih]
    push_cast
    ring

theorem sum_listsOf_none (S : Finset (ℤ × ℤ)) (k : ℕ) :
    (∑ l ∈ listsOf S k, if (l.filter P).length = 0 then (1 : ℚ) else 0) =
      ((S.card : ℚ) - ((S.filter (P · = true)).card : ℚ)) ^ k := by
  induction k with
  | zero => rw [listsOf, Finset.sum_singleton]; simp
  | succ k ih =>
    have e : ∀ x ∈ S, (∑ l ∈ listsOf S k, if ((x :: l).filter P).length = 0 then (1 : ℚ) else 0) =
        (1 - if P x = true then (1 : ℚ) else 0) * ∑ l ∈ listsOf S k, if (l.filter P).length = 0 then (1 : ℚ) else 0 := by
      intro x _
      rw [Finset.mul_sum]
      refine Finset.sum_congr rfl fun l _ => ?_
      rw [List.filter_cons]
      split_ifs with h1 h2 h3 h4 <;> simp_all
    have h1 : ∑ x ∈ S, (1 - if P x = true then (1 : ℚ) else 0) = (S.card : ℚ) - ((S.filter (P · = true)).card : ℚ) := by
      rw [Finset.sum_sub_distrib, Finset.card_filter]; push_cast; simp
    rw [sum_listsOf_succ, Finset.sum_congr rfl e, ← Finset.sum_mul, h1, ih]
    ring

/-- mean number of heads -/
theorem binomial_mean (h : ℕ) (f : ℚ) :
    ∑ k ∈ Finset.range (h + 1), (k : ℚ) * (h.choose k * f ^ k * (1 - f) ^ (h - k)) = h * f := by
  cases h with
  | zero => simp
  | succ n =>
    rw [Finset.sum_range_succ']
    have e : ∀ k ∈ Finset.range (n + 1), ((k + 1 : ℕ) : ℚ) * ((n + 1).choose (k + 1) * f ^ (k + 1) * (1 - f) ^ (n + 1 - (k + 1))) =
        ((n + 1 : ℕ) : ℚ) * f * (f ^ k * (1 - f) ^ (n - k) * n.choose k) := by
      intro k _
      have := Nat.add_one_mul_choose_eq n k
      have h2 : ((n + 1 : ℕ) : ℚ) * n.choose k = (n + 1).choose (k + 1) * ((k + 1 : ℕ) : ℚ) := by exact_mod_cast this
      rw [Nat.add_sub_add_right, pow_succ]
      calc _ = ((n + 1).choose (k + 1) * ((k + 1 : ℕ) : ℚ)) * (f ^ k * f) * (1 - f) ^ (n - k) := by ring
        _ = _ := by rw [← h2]; ring
    rw [Finset.sum_congr rfl e, ← Finset.mul_sum, ← add_pow]
    simp

theorem binomial_power (h : ℕ) (f q : ℚ) :
    ∑ k ∈ Finset.range (h + 1), h.choose k * f ^ k * (1 - f) ^ (h - k) * q ^ k = (1 - f + f * q) ^ h := by
  rw [add_comm (1 - f), add_pow]
  refine Finset.sum_congr rfl fun k _ => ?_
  rw [mul_pow]; ring

/-- faults that may be drawn -/
def possibles (h : ℕ) (lo hi : ℤ) : Finset (ℤ × ℤ) := Finset.Ico 0 (h : ℤ) ×ˢ Finset.Ico lo hi

theorem mem_possibles {h : ℕ} {lo hi : ℤ} {x : ℤ × ℤ} : x ∈ possibles h lo hi ↔ Possible h lo hi x := by
  simp only [possibles, Finset.mem_product, Finset.mem_Ico, Possible]

theorem card_possibles {h : ℕ} {lo hi : ℤ} (hl : lo ≤ hi) :
    ((possibles h lo hi).card : ℚ) = (h : ℚ) * ((hi : ℚ) - lo) := by
  rw [possibles, Finset.card_product, Int.card_Ico, Int.card_Ico]
  have h1 : ((hi - lo).toNat : ℚ) = (hi : ℚ) - lo := by
    have : (((hi - lo).toNat : ℤ) : ℚ) = ((hi - lo : ℤ) : ℚ) := by rw [Int.toNat_of_nonneg (by omega)]
    push_cast at this
    exact this
  push_cast
  rw [h1]
  simp

variable {Ω : Type} [Fintype Ω]

theorem mean_law {w : Ω → ℚ} {f : ℚ} {h : ℕ} {lo hi : ℤ} {F : Ω → List (ℤ × ℤ)} (hF : FairFaults w f h lo hi F)
    (φ : List (ℤ × ℤ) → ℚ) :
    ∑ ω, w ω * φ (F ω) = ∑ k ∈ Finset.range (h + 1),
      h.choose k * f ^ k * (1 - f) ^ (h - k) * (1 / ((h : ℚ) * ((hi : ℚ) - lo))) ^ k *
        ∑ l ∈ listsOf (possibles h lo hi) k, φ l := by
  have hmem : ∀ ω, F ω ∈ listsOf (possibles h lo hi) (F ω).length := fun ω =>
    mem_listsOf.mpr ⟨rfl, fun x hx => mem_possibles.mpr ((hF.possible ω).2 x hx)⟩
  have e1 : ∀ ω, w ω * φ (F ω) = ∑ k ∈ Finset.range (h + 1), ∑ l ∈ listsOf (possibles h lo hi) k,
      (if F ω = l then w ω else 0) * φ l := by
    intro ω
    rw [Finset.sum_eq_single (F ω).length, Finset.sum_eq_single (F ω)]
    · simp
    · intro l _ hl
      rw [if_neg (fun e => hl e.symm), zero_mul]
    · intro h'; exact absurd (hmem ω) h'
    · intro k _ hk
      refine Finset.sum_eq_zero fun l hl => ?_
      rw [if_neg, zero_mul]
      rintro rfl
      exact hk (mem_listsOf.mp hl).1.symm
    · intro h'
      exact absurd (Finset.mem_range.mpr (Nat.lt_succ_of_le (hF.possible ω).1)) h'
  rw [Finset.sum_congr rfl fun ω _ => e1 ω, Finset.sum_comm]
  refine Finset.sum_congr rfl fun k hk => ?_
  rw [Finset.sum_comm, Finset.mul_sum]
  refine Finset.sum_congr rfl fun l hl => ?_
  obtain ⟨hl1, hl2⟩ := mem_listsOf.mp hl
  have := hF.law l (by have := Finset.mem_range.mp hk; omega) fun x hx => mem_possibles.mp (hl2 x hx)
  rw [← Finset.sum_mul]
  unfold chance at this
  rw [this, hl1]

/-- mean number of faults of some kind -/
theorem mean_count {w : Ω → ℚ} {f : ℚ} {h : ℕ} {lo hi : ℤ} {F : Ω → List (ℤ × ℤ)} (hF : FairFaults w f h lo hi F)
    (hh : 0 < h) (hl : lo < hi) :
    mean w (fun ω => (((F ω).filter P).length : ℚ)) =
      f * (((possibles h lo hi).filter (P · = true)).card : ℚ) / ((hi : ℚ) - lo) := by
  unfold mean
  rw [mean_law hF fun l => ((l.filter P).length : ℚ)]
  have hc := card_possibles (h := h) hl.le
  have hm : (0 : ℚ) < (hi : ℚ) - lo := by
    have : (lo : ℚ) < hi := by exact_mod_cast hl
    linarith
  have hh' : (0 : ℚ) < h := by exact_mod_cast hh
  have hs : (0 : ℚ) < (h : ℚ) * ((hi : ℚ) - lo) := mul_pos hh' hm
  set c : ℚ := (((possibles h lo hi).filter (P · = true)).card : ℚ)
  have e : ∀ k ∈ Finset.range (h + 1), (h.choose k : ℚ) * f ^ k * (1 - f) ^ (h - k) * (1 / ((h : ℚ) * ((hi : ℚ) - lo))) ^ k *
        ∑ l ∈ listsOf (possibles h lo hi) k, ((l.filter P).length : ℚ) =
      (k : ℚ) * (h.choose k * f ^ k * (1 - f) ^ (h - k)) * (c / ((h : ℚ) * ((hi : ℚ) - lo))) := by
    intro k _
    have h1 := sum_listsOf_count P (possibles h lo hi) k
    rw [hc] at h1
    have h2 : ∑ l ∈ listsOf (possibles h lo hi) k, ((l.filter P).length : ℚ) =
        k * ((h : ℚ) * ((hi : ℚ) - lo)) ^ k * c / ((h : ℚ) * ((hi : ℚ) - lo)) := by
      rw [eq_div_iff hs.ne', mul_comm]; exact h1
    rw [h2, one_div, inv_pow]
    have : ((h : ℚ) * ((hi : ℚ) - lo)) ^ k ≠ 0 := pow_ne_zero _ hs.ne'
    generalize ((h : ℚ) * ((hi : ℚ) - lo)) = S at *
    generalize S ^ k = T at *
    have hS := hs.ne'
    field_simp
  rw [Finset.sum_congr rfl e, ← Finset.sum_mul, binomial_mean]
  field_simp

/-- chance of no fault of some kind -/
theorem chance_none {w : Ω → ℚ} {f : ℚ} {h : ℕ} {lo hi : ℤ} {F : Ω → List (ℤ × ℤ)} (hF : FairFaults w f h lo hi F)
    (hh : 0 < h) (hl : lo < hi) :
    chance w (fun ω => ((F ω).filter P).length = 0) =
      (1 - f * (((possibles h lo hi).filter (P · = true)).card : ℚ) / ((h : ℚ) * ((hi : ℚ) - lo))) ^ h := by
  have e0 : chance w (fun ω => ((F ω).filter P).length = 0) =
      ∑ ω, w ω * (fun l : List (ℤ × ℤ) => if (l.filter P).length = 0 then (1 : ℚ) else 0) (F ω) := by
    unfold chance
    refine Finset.sum_congr rfl fun ω _ => ?_
    simp only
    split_ifs <;> ring
  rw [e0, mean_law hF fun l : List (ℤ × ℤ) => if (l.filter P).length = 0 then (1 : ℚ) else 0]
  have hc := card_possibles (h := h) hl.le
  have hm : (0 : ℚ) < (hi : ℚ) - lo := by
    have : (lo : ℚ) < hi := by exact_mod_cast hl
    linarith
  have hh' : (0 : ℚ) < h := by exact_mod_cast hh
  have hs : (0 : ℚ) < (h : ℚ) * ((hi : ℚ) - lo) := mul_pos hh' hm
  set c : ℚ := (((possibles h lo hi).filter (P · = true)).card : ℚ)
  have e : ∀ k ∈ Finset.range (h + 1), (h.choose k : ℚ) * f ^ k * (1 - f) ^ (h - k) * (1 / ((h : ℚ) * ((hi : ℚ) - lo))) ^ k *
        (∑ l ∈ listsOf (possibles h lo hi) k, if (l.filter P).length = 0 then (1 : ℚ) else 0) =
      h.choose k * f ^ k * (1 - f) ^ (h - k) * (1 - c / ((h : ℚ) * ((hi : ℚ) - lo))) ^ k := by
    intro k _
    rw [sum_listsOf_none, hc, mul_assoc _ ((1 / _) ^ k), ← mul_pow]
    congr 2
    field_simp
    rfl
  rw [Finset.sum_congr rfl e, binomial_power]
  congr 1
  ring

/-- beginnings and durations of the faults that go on at a step -/
theorem card_going {h : ℕ} {lo hi : ℤ} (hlo : 0 ≤ lo) {i : ℕ} (hi' : i < h) :
    (((possibles h lo hi).filter (fun x => decide (x.1 ≤ (i : ℤ) ∧ (i : ℤ) < x.1 + x.2) = true)).card : ℚ) =
      ((∑ d ∈ Finset.Ico lo hi, min d ((i : ℤ) + 1) : ℤ) : ℚ) := by
  rw [Finset.card_filter, possibles, Finset.sum_product_right]
  push_cast
  refine Finset.sum_congr rfl fun d hd => ?_
  have h1 : ∑ b ∈ Finset.Ico 0 (h : ℤ), (if decide (b ≤ (i : ℤ) ∧ (i : ℤ) < b + d) = true then (1 : ℚ) else 0) =
      ((Finset.Ico (max 0 ((i : ℤ) + 1 - d)) ((i : ℤ) + 1)).card : ℚ) := by
    rw [Finset.card_eq_sum_ones, ← Finset.sum_filter]
    push_cast
    refine Finset.sum_congr ?_ fun _ _ => rfl
    ext b
    simp only [Finset.mem_filter, Finset.mem_Ico, decide_eq_true_eq]
    omega
  rw [Finset.mem_Ico] at hd
  rw [h1, Int.card_Ico]
  have h2 : ((((i : ℤ) + 1 - max 0 ((i : ℤ) + 1 - d)).toNat : ℤ)) = min d ((i : ℤ) + 1) := by omega
  have h3 : (((((i : ℤ) + 1 - max 0 ((i : ℤ) + 1 - d)).toNat : ℤ)) : ℚ) = ((min d ((i : ℤ) + 1) : ℤ) : ℚ) := by rw [h2]
  push_cast at h3
  exact h3

/-! ### Draws of the model -/

variable {σ : Type}

theorem faultScenario_drawn {g : Rng σ} {p : FaultParams} (hp : ∀ z ∈ p.seed, z = 0) {scn : Cell} {s v : Scen}
    {r r' : Rand σ} (h : faultScenario g p scn s r = (.ok v, r')) :
    subtractQuantity (lossOf p.loss s.index.length (drawnFaults g p s.index.length r.np).1) s = .ok v ∧
      r'.np = (drawnFaults g p s.index.length r.np).2 := by
  have hs : faultSeed g p.seed r = (.ok (), r) := by
    rcases hz : p.seed with _ | z
    · rfl
    · have := hp z (by rw [hz]; rfl)
      subst this
      rfl
  simp only [faultScenario, PyM.bind_run, hs, PyM.lift_run, npCount] at h
  unfold drawnFaults
  by_cases hf : 0 ≤ p.occurFreq ∧ p.occurFreq ≤ 1
  · rw [if_pos hf] at h
    simp only [npRandint] at h
    by_cases h0 : (g.count p.occurFreq s.index.length r.np).1 = 0
    · simp only [h0, if_true] at h ⊢
      simp only [Prod.mk.injEq] at h
      exact ⟨h.1, by rw [← h.2]⟩
    · simp only [if_neg h0] at h ⊢
      by_cases h1 : (s.index.length : ℤ) ≤ 0
      · simp only [if_pos h1] at h; simp at h
      · simp only [if_neg h1] at h
        by_cases h2 : p.downtimeMax ≤ p.downtimeMin
        · simp only [if_pos h2] at h; simp at h
        · simp only [if_neg h2, Prod.mk.injEq] at h
          exact ⟨h.1, by rw [← h.2]⟩
  · rw [if_neg hf] at h
    simp at h

/-- the state in which each scenario is dealt with -/
theorem focusLoop_steps {process : Cell → Scen → PyM (Rand σ) Scen} {outputs : List String} {t : Timeline}
    {step : ℕ → σ} (hstep : ∀ scn r v r' k, r.np = step k → process scn (t.sub scn) r = (.ok v, r') → r'.np = step (k + 1))
    {pos : Cell → ℕ} {scns : List Cell} {off : ℕ} (hpos : ∀ k scn, scns[k]? = some scn → pos scn = off + k)
    {r r' : Rand σ} {cols} (hr : r.np = step off) (h : focusLoop process outputs t scns r = (.ok cols, r')) :
    ∃ part : List (List (String × List Val)),
      List.Forall₂ (fun scn c => ∃ r1 v r2, r1.np = step (pos scn) ∧ process scn (t.sub scn) r1 = (.ok v, r2) ∧
        assignScenario t.index.length outputs v = .ok c) scns part ∧
      cols = (List.zip scns part).flatMap fun p => p.2.map fun x => ((p.1, x.1), x.2) := by
  induction scns generalizing r cols off with
  | nil =>
    simp only [focusLoop, PyM.pure, Prod.mk.injEq, Except.ok.injEq] at h
    exact ⟨[], .nil, by simp [← h.1]⟩
  | cons scn rest ih =>
    obtain ⟨v, r1, c, tail, hp, ha, hf, rfl⟩ := focusLoop_cons h
    obtain ⟨part, h1, h2⟩ := ih (off := off + 1) (fun k x hx => by
      have := hpos (k + 1) x (by simpa using hx)
      omega) (hstep _ _ _ _ _ hr hp) hf
    refine ⟨c :: part, .cons ⟨r, v, r1, ?_, hp, ha⟩ h1, by simp [h2]⟩
    rw [hr, hpos 0 scn rfl, Nat.add_zero]

theorem focus_at {process : Cell → Scen → PyM (Rand σ) Scen} {outputs : List String}
    {t t' : Timeline} {r r' : Rand σ} {step : ℕ → σ}
    (hstep : ∀ scn r v r' k, r.np = step k → process scn (t.sub scn) r = (.ok v, r') → r'.np = step (k + 1))
    (hr : r.np = step 0) (h : focusProcess process outputs t r = (.ok t', r')) {scn : Cell} {k : ℕ}
    (hs : t.scenarios[k]? = some scn) :
    ∃ r1 v r2, r1.np = step k ∧ process scn (t.sub scn) r1 = (.ok v, r2) ∧
      assignScenario t.index.length outputs v = .ok (t'.sub scn).cols := by
  obtain ⟨_, hl⟩ := focusProcess_ok h
  have hpos : ∀ j x, t.scenarios[j]? = some x → t.scenarios.idxOf x = 0 + j := by
    intro j x hx
    obtain ⟨hj, rfl⟩ := List.getElem?_eq_some_iff.mp hx
    rw [(scenarios_nodup t).idxOf_getElem, Nat.zero_add]
  obtain ⟨part, h1, h2⟩ := focusLoop_steps hstep hpos hr hl
  obtain ⟨c, ⟨r1, v, r2, h0, h3, h4⟩, h5⟩ := parts_sub h1 (scenarios_nodup t) (List.mem_of_getElem? hs)
  refine ⟨r1, v, r2, ?_, h3, ?_⟩
  · rw [h0, hpos k scn hs, Nat.zero_add]
  · rw [h4]
    simp only [Timeline.sub, h2]
    rw [← h5]

/-! ### Fair draws exist -/

/-- a generator that draws given faults for each scenario -/
def tape (l : List (ℤ × ℤ)) : Rng ℕ where
  seed := fun _ => 0
  count := fun _ n _ => (min l.length n, 1)
  randint := fun lo hi size s => ((List.range size).map fun j =>
    let z := if s = 1 then (l.getD j (0, 0)).1 else (l.getD j (0, 0)).2
    if lo ≤ z ∧ z < hi then z else lo, s + 1)

theorem tape_lawful (l : List (ℤ × ℤ)) : Lawful (tape l) where
  count_le := fun _ n _ => min_le_right _ _
  randint_length := fun _ _ _ _ _ => by simp [tape]
  randint_mem := fun lo hi size s hlt z hz => by
    simp only [tape] at hz
    obtain ⟨j, -, rfl⟩ := List.mem_map.mp hz
    generalize (if s = 1 then (l.getD j (0, 0)).1 else (l.getD j (0, 0)).2) = z
    split_ifs with h
    · exact h
    · exact ⟨le_refl _, hlt⟩

theorem tape_drawn {l : List (ℤ × ℤ)} {p : FaultParams} {h : ℕ} (hl : l.length ≤ h)
    (hp : ∀ x ∈ l, Possible h p.downtimeMin p.downtimeMax x) (s : ℕ) : (drawnFaults (tape l) p h s).1 = l := by
  have hc : ((tape l).count p.occurFreq h s) = (l.length, 1) := by simp [tape, hl]
  unfold drawnFaults
  rw [hc]
  by_cases h0 : l.length = 0
  · rw [if_pos h0, List.length_eq_zero_iff.mp h0]
  · rw [if_neg h0]
    apply List.ext_getElem
    · simp [tape]
    · intro j h1 h2
      have := hp _ (List.getElem_mem h2)
      rw [List.getElem_zip]
      simp only [tape, List.getElem_map, List.getElem_range, List.getD_eq_getElem?_getD,
        List.getElem?_eq_getElem h2, Option.getD_some, if_true]
      rw [if_pos ⟨this.1.1, this.1.2⟩]
      simp only [show ¬ (1 + 1 = 1) by omega, if_false]
      rw [if_pos ⟨this.2.1, this.2.2⟩]

/-- all lists of at most `h` items of a set -/
def listsUpTo (S : Finset (ℤ × ℤ)) (h : ℕ) : Finset (List (ℤ × ℤ)) := (Finset.range (h + 1)).biUnion (listsOf S)

theorem mem_listsUpTo {S : Finset (ℤ × ℤ)} {h : ℕ} {l : List (ℤ × ℤ)} :
    l ∈ listsUpTo S h ↔ l.length ≤ h ∧ ∀ x ∈ l, x ∈ S := by
  simp only [listsUpTo, Finset.mem_biUnion, Finset.mem_range, mem_listsOf]
  constructor
  · rintro ⟨k, h1, rfl, h2⟩; exact ⟨by omega, h2⟩
  · rintro ⟨h1, h2⟩; exact ⟨_, by omega, rfl, h2⟩

theorem sum_listsUpTo (S : Finset (ℤ × ℤ)) (h : ℕ) (φ : List (ℤ × ℤ) → ℚ) :
    ∑ l ∈ listsUpTo S h, φ l = ∑ k ∈ Finset.range (h + 1), ∑ l ∈ listsOf S k, φ l := by
  refine Finset.sum_biUnion ?_
  intro i _ j _ hij
  refine Finset.disjoint_left.mpr fun l h1 h2 => hij ?_
  rw [← (mem_listsOf.mp h1).1, (mem_listsOf.mp h2).1]

/-- weight of a list of faults -/
def weightOf (f : ℚ) (h : ℕ) (lo hi : ℤ) (l : List (ℤ × ℤ)) : ℚ :=
  h.choose l.length * f ^ l.length * (1 - f) ^ (h - l.length) * (1 / ((h : ℚ) * ((hi : ℚ) - lo))) ^ l.length

theorem weightOf_fair {f : ℚ} {h : ℕ} {lo hi : ℤ} (hf : 0 ≤ f ∧ f ≤ 1) (hh : 0 < h) (hl : lo < hi) :
    FairFaults (Ω := {l // l ∈ listsUpTo (possibles h lo hi) h}) (fun ω => weightOf f h lo hi ω.1) f h lo hi
      (fun ω => ω.1) where
  weights := {
    nonneg := fun ω => by
      have h1 : (0 : ℚ) ≤ 1 - f := by linarith [hf.2]
      have h2 : (0 : ℚ) ≤ (hi : ℚ) - lo := by
        have : (lo : ℚ) < hi := by exact_mod_cast hl
        linarith
      have h3 := hf.1
      unfold weightOf
      exact mul_nonneg (mul_nonneg (mul_nonneg (Nat.cast_nonneg _) (pow_nonneg h3 _)) (pow_nonneg h1 _))
        (pow_nonneg (div_nonneg zero_le_one (mul_nonneg (Nat.cast_nonneg _) h2)) _)
    total := by
      have e : ∑ ω : {l // l ∈ listsUpTo (possibles h lo hi) h}, weightOf f h lo hi ω.1 =
          ∑ l ∈ listsUpTo (possibles h lo hi) h, weightOf f h lo hi l :=
        Finset.sum_coe_sort _ (weightOf f h lo hi)
      rw [e, sum_listsUpTo]
      have hm : (0 : ℚ) < (hi : ℚ) - lo := by
        have : (lo : ℚ) < hi := by exact_mod_cast hl
        linarith
      have hh' : (0 : ℚ) < h := by exact_mod_cast hh
      have hs : (0 : ℚ) < (h : ℚ) * ((hi : ℚ) - lo) := mul_pos hh' hm
      have e1 : ∀ k ∈ Finset.range (h + 1), ∑ l ∈ listsOf (possibles h lo hi) k, weightOf f h lo hi l =
          h.choose k * f ^ k * (1 - f) ^ (h - k) * 1 ^ k := by
        intro k _
        have : ∀ l ∈ listsOf (possibles h lo hi) k, weightOf f h lo hi l =
            h.choose k * f ^ k * (1 - f) ^ (h - k) * (1 / ((h : ℚ) * ((hi : ℚ) - lo))) ^ k * 1 := by
          intro l hl
          unfold weightOf
          rw [(mem_listsOf.mp hl).1, mul_one]
        rw [Finset.sum_congr rfl this, ← Finset.mul_sum, sum_listsOf_one, card_possibles hl.le, mul_assoc, ← mul_pow,
          one_div, inv_mul_cancel₀ hs.ne']
      rw [Finset.sum_congr rfl e1, binomial_power]
      simp }
  possible := fun ω => by
    obtain ⟨h1, h2⟩ := mem_listsUpTo.mp ω.2
    exact ⟨h1, fun x hx => mem_possibles.mp (h2 x hx)⟩
  law := fun l h1 h2 => by
    have hm : l ∈ listsUpTo (possibles h lo hi) h := mem_listsUpTo.mpr ⟨h1, fun x hx => mem_possibles.mpr (h2 x hx)⟩
    unfold chance
    rw [Finset.sum_eq_single (⟨l, hm⟩ : {l // l ∈ listsUpTo (possibles h lo hi) h})]
    · rw [if_pos rfl]; rfl
    · intro ω _ hne
      rw [if_neg]
      intro e
      exact hne (Subtype.ext e)
    · intro h'; exact absurd (Finset.mem_univ _) h'

theorem bernoulli {a : ℚ} (h0 : 0 < a) (h1 : a < 1) {n : ℕ} (hn : 2 ≤ n) : 1 - n * a < (1 - a) ^ n := by
  induction n, hn using Nat.le_induction with
  | base => push_cast; nlinarith
  | succ n hn ih =>
    have h2 : (1 - n * a) * (1 - a) < (1 - a) ^ n * (1 - a) := mul_lt_mul_of_pos_right ih (by linarith)
    rw [pow_succ]
    have h3 : (0 : ℚ) ≤ n * (a * a) := by positivity
    push_cast
    nlinarith

/-! ### Means of durations -/

theorem sum_durations (lo : ℤ) (m : ℕ) :
    ∑ d ∈ Finset.Ico lo (lo + m), (d : ℚ) = (m : ℚ) * (2 * lo + m - 1) / 2 := by
  induction m with
  | zero => simp
  | succ m ih =>
    have e : Finset.Ico lo (lo + ((m + 1 : ℕ) : ℤ)) = insert (lo + (m : ℤ)) (Finset.Ico lo (lo + m)) := by
      ext x
      simp only [Finset.mem_insert, Finset.mem_Ico]
      push_cast
      omega
    rw [e, Finset.sum_insert (by simp), ih]
    push_cast
    ring

end Hadar
