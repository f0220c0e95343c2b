import Verif.Proofs.Chance
import Verif.Proofs.Sampling
import Verif.Spec.Fair

/-! # Lemmas on fair draws of scenarios -/

namespace Hadar

open Hadar.Spec

section lists

variable {α : Type} [DecidableEq α] (S : Finset α) (y : α → ℚ)

/-- sum of a number over the items at a place -/
theorem sum_listsOf_at {k nb : ℕ} (hk : k < nb) (dflt : α) :
    (S.card : ℚ) * ∑ l ∈ listsOf S nb, y (l.getD k dflt) = (S.card : ℚ) ^ nb * ∑ x ∈ S, y x := by
  induction nb generalizing k with
  | zero => omega
  | succ nb ih =>
    rw [sum_listsOf_succ]
    cases k with
    | zero =>
      simp only [List.getD_cons_zero]
      have : ∀ x ∈ S, ∑ _l ∈ listsOf S nb, y x = y x * (S.card : ℚ) ^ nb := by
        intro x _
        rw [← sum_listsOf_one, Finset.mul_sum]
        simp
      rw [Finset.sum_congr rfl this, ← Finset.sum_mul]
      ring
    | succ k =>
      simp only [List.getD_cons_succ]
      rw [Finset.sum_const, nsmul_eq_mul, ih (by omega)]
      ring

variable (hy : ∑ x ∈ S, y x = 0)

include hy

theorem sum_listsOf_centred (k : ℕ) : ∑ l ∈ listsOf S k, (l.map y).sum = 0 := by
  induction k with
  | zero => simp [listsOf]
  | succ k ih =>
    rw [sum_listsOf_succ]
    have : ∀ x ∈ S, ∑ l ∈ listsOf S k, ((x :: l).map y).sum = y x * (S.card : ℚ) ^ k := by
      intro x _
      simp only [List.map_cons, List.sum_cons]
      rw [Finset.sum_add_distrib, ih, ← sum_listsOf_one, Finset.mul_sum]
      simp
    rw [Finset.sum_congr rfl this, ← Finset.sum_mul, hy, zero_mul]

theorem sum_listsOf_square (k : ℕ) :
    (S.card : ℚ) * ∑ l ∈ listsOf S k, (l.map y).sum ^ 2 = k * (S.card : ℚ) ^ k * ∑ x ∈ S, y x ^ 2 := by
  induction k with
  | zero => simp [listsOf]
  | succ k ih =>
    rw [sum_listsOf_succ]
    have : ∀ x ∈ S, ∑ l ∈ listsOf S k, ((x :: l).map y).sum ^ 2 =
        y x ^ 2 * (S.card : ℚ) ^ k + ∑ l ∈ listsOf S k, (l.map y).sum ^ 2 := by
      intro x _
      have e : ∀ l ∈ listsOf S k, ((x :: l).map y).sum ^ 2 = y x ^ 2 * 1 + 2 * y x * (l.map y).sum + (l.map y).sum ^ 2 := by
        intro l _
        simp only [List.map_cons, List.sum_cons]
        ring
      rw [Finset.sum_congr rfl e, Finset.sum_add_distrib, Finset.sum_add_distrib, ← Finset.mul_sum, ← Finset.mul_sum,
        sum_listsOf_centred S y hy k, sum_listsOf_one]
      ring
    rw [Finset.sum_congr rfl this, Finset.sum_add_distrib, ← Finset.sum_mul, Finset.sum_const, nsmul_eq_mul, mul_add, ih]
    push_cast
    ring

end lists

variable {Ω : Type} [Fintype Ω] {w : Ω → ℚ} {n nb : ℕ} {I : Ω → List ℤ}

/-- mean of what depends on the indexes drawn -/
theorem Spec.FairIndexes.mean_eq (h : FairIndexes w n nb I) (ψ : List ℤ → ℚ) :
    mean w (fun ω => ψ (I ω)) = (1 / (n : ℚ)) ^ nb * ∑ l ∈ listsOf (Finset.Ico (0 : ℤ) n) nb, ψ l := by
  have hm : ∀ ω, I ω ∈ listsOf (Finset.Ico (0 : ℤ) n) nb := fun ω =>
    mem_listsOf.mpr ⟨(h.inRange ω).1, fun x hx => Finset.mem_Ico.mpr ((h.inRange ω).2 x hx)⟩
  unfold mean
  have e1 : ∀ ω, w ω * ψ (I ω) = ∑ l ∈ listsOf (Finset.Ico (0 : ℤ) n) nb, (if I ω = l then w ω else 0) * ψ l := by
    intro ω
    rw [Finset.sum_eq_single (I ω)]
    · simp
    · intro l _ hne
      rw [if_neg (Ne.symm hne), zero_mul]
    · intro hn; exact absurd (hm ω) hn
  simp only [e1]
  rw [Finset.sum_comm, Finset.mul_sum]
  refine Finset.sum_congr rfl fun l hl => ?_
  rw [← Finset.sum_mul]
  obtain ⟨h1, h2⟩ := mem_listsOf.mp hl
  have := h.law l h1 fun z hz => Finset.mem_Ico.mp (h2 z hz)
  unfold chance at this
  rw [this]

theorem card_indexes (n : ℕ) : ((Finset.Ico (0 : ℤ) n).card : ℚ) = n := by
  rw [Int.card_Ico]; simp

theorem sum_ico (ψ : ℤ → ℚ) (n : ℕ) : ∑ z ∈ Finset.Ico (0 : ℤ) n, ψ z = ∑ i ∈ Finset.range n, ψ i := by
  induction n with
  | zero => simp
  | succ n ih =>
    have e : Finset.Ico (0 : ℤ) ((n + 1 : ℕ) : ℤ) = insert (n : ℤ) (Finset.Ico (0 : ℤ) n) := by
      ext x
      simp only [Finset.mem_insert, Finset.mem_Ico]
      omega
    rw [e, Finset.sum_insert (by simp), ih, Finset.sum_range_succ, add_comm]

/-- sum over rows -/
theorem sum_indexes (φ : List Val → ℚ) (d : Rows) :
    ∑ z ∈ Finset.Ico (0 : ℤ) d.length, φ (d.getD z.toNat []) = (d.map φ).sum := by
  rw [sum_ico fun z => φ (d.getD z.toNat [])]
  simp only [Int.toNat_natCast]
  induction d with
  | nil => simp
  | cons a d ih =>
    rw [List.length_cons, Finset.sum_range_succ']
    simp only [List.getD_cons_succ, List.getD_cons_zero, List.map_cons, List.sum_cons]
    rw [ih, add_comm]

theorem picked_rows {d : Rows} {ix : List ℤ} {rows : Rows} (h : Picked d ix rows) :
    rows = ix.map fun z => d.getD z.toNat [] := by
  unfold Picked at h
  induction h with
  | nil => rfl
  | cons h1 _ ih =>
    obtain ⟨k, rfl, hk⟩ := h1
    rw [List.map_cons, ← ih, Int.toNat_natCast, List.getD_eq_getElem?_getD, hk]
    rfl

section rows

variable {d : Rows} {rows : Ω → Rows}

/-- each scenario drawn is any of the data -/
theorem fair_mean (h : FairIndexes w d.length nb I) (hp : ∀ ω, Picked d (I ω) (rows ω)) (hd : d ≠ [])
    (φ : List Val → ℚ) {k : ℕ} (hk : k < nb) :
    mean w (fun ω => φ ((rows ω).getD k [])) = average φ d := by
  have hn : (0 : ℚ) < d.length := by exact_mod_cast List.length_pos_of_ne_nil hd
  have e : ∀ ω, φ ((rows ω).getD k []) = (fun l : List ℤ => φ (d.getD (l.getD k 0).toNat [])) (I ω) := by
    intro ω
    have hl : k < (I ω).length := by rw [(h.inRange ω).1]; exact hk
    rw [picked_rows (hp ω)]
    simp only [List.getD_eq_getElem?_getD, List.getElem?_map, List.getElem?_eq_getElem hl, Option.map_some,
      Option.getD_some]
  simp only [e]
  rw [h.mean_eq fun l : List ℤ => φ (d.getD (l.getD k 0).toNat [])]
  have := sum_listsOf_at (Finset.Ico (0 : ℤ) d.length) (fun z => φ (d.getD z.toNat [])) hk 0
  rw [card_indexes, sum_indexes] at this
  unfold average
  rw [eq_div_iff hn.ne', mul_assoc, mul_comm _ (d.length : ℚ), this, ← mul_assoc, ← mul_pow, one_div,
    inv_mul_cancel₀ hn.ne', one_pow, one_mul]

theorem centred_sum (φ : List Val → ℚ) (hd : d ≠ []) :
    ∑ z ∈ Finset.Ico (0 : ℤ) d.length, (φ (d.getD z.toNat []) - average φ d) = 0 := by
  have hn : (0 : ℚ) < d.length := by exact_mod_cast List.length_pos_of_ne_nil hd
  rw [Finset.sum_sub_distrib, sum_indexes, Finset.sum_const, nsmul_eq_mul, card_indexes]
  unfold average
  field_simp
  ring

theorem sum_centred (φ : List Val → ℚ) (c : ℚ) (l : List ℤ) (hl : l ≠ []) :
    (l.map fun z => φ (d.getD z.toNat []) - c).sum = l.length * (average φ (l.map fun z => d.getD z.toNat []) - c) := by
  have hn : (0 : ℚ) < l.length := by exact_mod_cast List.length_pos_of_ne_nil hl
  have e : (l.map fun z => φ (d.getD z.toNat []) - c).sum = (l.map fun z => φ (d.getD z.toNat [])).sum - l.length * c := by
    clear hl hn
    induction l with
    | nil => simp
    | cons a l ih => simp only [List.map_cons, List.sum_cons, List.length_cons, ih]; push_cast; ring
  rw [e]
  unfold average
  rw [List.map_map, List.length_map]
  simp only [Function.comp_def]
  field_simp

theorem fair_average (h : FairIndexes w d.length nb I) (hp : ∀ ω, Picked d (I ω) (rows ω)) (hd : d ≠ []) (hnb : 0 < nb)
    (φ : List Val → ℚ) : mean w (fun ω => average φ (rows ω)) = average φ d := by
  have hnb' : (0 : ℚ) < nb := by exact_mod_cast hnb
  have e1 : mean w (fun ω => average φ (rows ω)) - average φ d =
      mean w (fun ω => (1 / (nb : ℚ)) * ((I ω).map fun z => φ (d.getD z.toNat []) - average φ d).sum) := by
    conv_lhs => rw [← mul_one (average φ d), ← h.weights.total]
    unfold mean
    rw [Finset.mul_sum, ← Finset.sum_sub_distrib]
    refine Finset.sum_congr rfl fun ω _ => ?_
    beta_reduce
    rw [sum_centred φ _ _ (by
      intro h0
      have := (h.inRange ω).1
      rw [h0] at this
      simp at this
      omega), (h.inRange ω).1, ← picked_rows (hp ω)]
    field_simp
  rw [h.mean_eq fun l => (1 / (nb : ℚ)) * (l.map fun z => φ (d.getD z.toNat []) - average φ d).sum, ← Finset.mul_sum,
    sum_listsOf_centred _ _ (centred_sum φ hd)] at e1
  linarith [e1]

theorem fair_spread (h : FairIndexes w d.length nb I) (hp : ∀ ω, Picked d (I ω) (rows ω)) (hd : d ≠ []) (hnb : 0 < nb)
    (φ : List Val → ℚ) : mean w (fun ω => (average φ (rows ω) - average φ d) ^ 2) = spread φ d / nb := by
  have hnb' : (0 : ℚ) < nb := by exact_mod_cast hnb
  have hn : (0 : ℚ) < d.length := by exact_mod_cast List.length_pos_of_ne_nil hd
  have e1 : mean w (fun ω => (average φ (rows ω) - average φ d) ^ 2) =
      mean w (fun ω => (1 / (nb : ℚ)) ^ 2 * ((I ω).map fun z => φ (d.getD z.toNat []) - average φ d).sum ^ 2) := by
    unfold mean
    refine Finset.sum_congr rfl fun ω _ => ?_
    beta_reduce
    rw [sum_centred φ _ _ (by
      intro h0
      have := (h.inRange ω).1
      rw [h0] at this
      simp at this
      omega), (h.inRange ω).1, ← picked_rows (hp ω)]
    field_simp
  rw [e1, h.mean_eq fun l => (1 / (nb : ℚ)) ^ 2 * (l.map fun z => φ (d.getD z.toNat []) - average φ d).sum ^ 2,
    ← Finset.mul_sum]
  have e2 := sum_listsOf_square _ _ (centred_sum φ hd) nb
  rw [card_indexes, sum_indexes (fun row => (φ row - average φ d) ^ 2)] at e2
  have e3 : spread φ d = (d.map fun row => (φ row - average φ d) ^ 2).sum / d.length := rfl
  rw [e3]
  set X := ∑ l ∈ listsOf (Finset.Ico (0 : ℤ) d.length) nb, (l.map fun z => φ (d.getD z.toNat []) - average φ d).sum ^ 2
  set Y := (d.map fun row => (φ row - average φ d) ^ 2).sum
  have hX : X = nb * (d.length : ℚ) ^ nb * Y / d.length := by
    rw [eq_div_iff hn.ne', mul_comm]; exact e2
  rw [hX, one_div, one_div, inv_pow, inv_pow]
  have hpow : (d.length : ℚ) ^ nb ≠ 0 := pow_ne_zero _ hn.ne'
  field_simp

/-- far from the mean: no more often than the mean square allows -/
theorem chebyshev (hw : CaseWeights w) (x : Ω → ℚ) (c : ℚ) {ε : ℚ} (hε : 0 < ε) :
    chance w (fun ω => ε ≤ |x ω - c|) ≤ mean w (fun ω => (x ω - c) ^ 2) / ε ^ 2 := by
  rw [le_div_iff₀ (by positivity)]
  unfold chance mean
  rw [Finset.sum_mul]
  refine Finset.sum_le_sum fun ω _ => ?_
  split_ifs with h
  · refine mul_le_mul_of_nonneg_left ?_ (hw.nonneg ω)
    beta_reduce at h ⊢
    rcases abs_cases (x ω - c) with ⟨h1, _⟩ | ⟨h1, _⟩ <;> rw [h1] at h <;> nlinarith
  · rw [zero_mul]
    exact mul_nonneg (hw.nonneg ω) (sq_nonneg _)

/-- the same indexes for two timelines -/
theorem fair_together {e : Rows} {rows' : Ω → Rows} (h : FairIndexes w d.length nb I) (hp : ∀ ω, Picked d (I ω) (rows ω))
    (hq : ∀ ω, Picked e (I ω) (rows' ω)) (hd : d ≠ []) (φ ψ : List Val → ℚ) {k : ℕ} (hk : k < nb) :
    mean w (fun ω => φ ((rows ω).getD k []) * ψ ((rows' ω).getD k [])) =
      (∑ i ∈ Finset.range d.length, φ (d.getD i []) * ψ (e.getD i [])) / d.length := by
  have hn : (0 : ℚ) < d.length := by exact_mod_cast List.length_pos_of_ne_nil hd
  have e1 : ∀ ω, φ ((rows ω).getD k []) * ψ ((rows' ω).getD k []) =
      (fun l : List ℤ => φ (d.getD (l.getD k 0).toNat []) * ψ (e.getD (l.getD k 0).toNat [])) (I ω) := by
    intro ω
    have hl : k < (I ω).length := by rw [(h.inRange ω).1]; exact hk
    rw [picked_rows (hp ω), picked_rows (hq ω)]
    simp only [List.getD_eq_getElem?_getD, List.getElem?_map, List.getElem?_eq_getElem hl, Option.map_some,
      Option.getD_some]
  simp only [e1]
  rw [h.mean_eq fun l : List ℤ => φ (d.getD (l.getD k 0).toNat []) * ψ (e.getD (l.getD k 0).toNat [])]
  have := sum_listsOf_at (Finset.Ico (0 : ℤ) d.length) (fun z => φ (d.getD z.toNat []) * ψ (e.getD z.toNat [])) hk 0
  have e2 : ∑ z ∈ Finset.Ico (0 : ℤ) d.length, φ (d.getD z.toNat []) * ψ (e.getD z.toNat []) =
      ∑ i ∈ Finset.range d.length, φ (d.getD i []) * ψ (e.getD i []) := by
    rw [sum_ico fun z => φ (d.getD z.toNat []) * ψ (e.getD z.toNat [])]
    simp only [Int.toNat_natCast]
  rw [card_indexes, e2] at this
  rw [eq_div_iff hn.ne', mul_assoc, mul_comm _ (d.length : ℚ), this, ← mul_assoc, ← mul_pow, one_div,
    inv_mul_cancel₀ hn.ne', one_pow, one_mul]

end rows

/-! ### Fair draws exist -/

/-- a generator that draws given indexes -/
def indexTape (l : List ℤ) : Rng Unit where
  seed := fun _ => ()
  count := fun _ n _ => (n, ())
  randint := fun lo hi size _ => ((List.range size).map fun j =>
    if lo ≤ l.getD j 0 ∧ l.getD j 0 < hi then l.getD j 0 else lo, ())

theorem indexTape_lawful (l : List ℤ) : Lawful (indexTape l) where
  count_le := fun _ n _ => le_refl n
  randint_length := fun _ _ _ _ _ => by simp [indexTape]
  randint_mem := fun lo hi size s hlt z hz => by
    simp only [indexTape] at hz
    obtain ⟨j, -, rfl⟩ := List.mem_map.mp hz
    split_ifs with h
    · exact h
    · exact ⟨le_refl _, hlt⟩

theorem indexTape_draws {l : List ℤ} {n : ℕ} (hl : ∀ z ∈ l, 0 ≤ z ∧ z < n) :
    draws (indexTape l) l.length n () = l := by
  unfold draws
  split_ifs with h0
  · exact (List.length_eq_zero_iff.mp h0).symm
  · apply List.ext_getElem
    · simp [indexTape]
    · intro j h1 h2
      simp only [indexTape, List.getElem_map, List.getElem_range, List.getD_eq_getElem?_getD,
        List.getElem?_eq_getElem h2, Option.getD_some]
      rw [if_pos (hl _ (List.getElem_mem h2))]

theorem fair_exists {n : ℕ} (hn : 0 < n) (nb : ℕ) :
    FairIndexes (Ω := {l // l ∈ listsOf (Finset.Ico (0 : ℤ) n) nb}) (fun _ => (1 / (n : ℚ)) ^ nb) n nb (fun ω => ω.1) where
  weights := {
    nonneg := fun _ => pow_nonneg (div_nonneg zero_le_one (Nat.cast_nonneg _)) _
    total := by
      have hn' : (0 : ℚ) < n := by exact_mod_cast hn
      have e : ∑ _ω : {l // l ∈ listsOf (Finset.Ico (0 : ℤ) n) nb}, (1 / (n : ℚ)) ^ nb =
          ∑ _l ∈ listsOf (Finset.Ico (0 : ℤ) n) nb, (1 / (n : ℚ)) ^ nb * 1 := by
        rw [← Finset.sum_coe_sort (listsOf (Finset.Ico (0 : ℤ) n) nb) fun _ => (1 / (n : ℚ)) ^ nb * 1]
        refine Finset.sum_congr rfl fun _ _ => (mul_one _).symm
      rw [e, ← Finset.mul_sum, sum_listsOf_one, card_indexes, ← mul_pow, one_div, inv_mul_cancel₀ hn'.ne', one_pow] }
  inRange := fun ω => by
    obtain ⟨h1, h2⟩ := mem_listsOf.mp ω.2
    exact ⟨h1, fun z hz => Finset.mem_Ico.mp (h2 z hz)⟩
  law := fun l h1 h2 => by
    have hm : l ∈ listsOf (Finset.Ico (0 : ℤ) n) nb := mem_listsOf.mpr ⟨h1, fun x hx => Finset.mem_Ico.mpr (h2 x hx)⟩
    unfold chance
    rw [Finset.sum_eq_single (⟨l, hm⟩ : {l // l ∈ listsOf (Finset.Ico (0 : ℤ) n) nb})]
    · rw [if_pos rfl]
    · intro ω _ hne
      rw [if_neg]
      intro e
      exact hne (Subtype.ext e)
    · intro h'; exact absurd (Finset.mem_univ _) h'

end Hadar
