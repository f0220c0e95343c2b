import Mathlib.Data.Rat.Floor
import Mathlib.Algebra.BigOperators.Ring.Finset
import Mathlib.Algebra.Order.BigOperators.Group.Finset
import Mathlib.Combinatorics.Enumerative.DoubleCounting
import Mathlib.LinearAlgebra.FiniteDimensional.Lemmas
import Mathlib.LinearAlgebra.Dimension.Constructions
import Mathlib.Tactic.Linarith
import Mathlib.Tactic.Ring
import Mathlib.Tactic.FieldSimp

/-!
# Flows in a network can be rounded to whole numbers

Each flow `v` comes to the place `a v` and leaves the place `b v`, if any.
-/

namespace Hadar.Rounding

variable {V N : Type} [DecidableEq N]

/-- what a unit of a flow brings to a place -/
def brings (a b : V → Option N) (n : N) (v : V) : ℚ := (if a v = some n then 1 else 0) - if b v = some n then 1 else 0

/-- what flows bring to a place -/
def net (vs : Finset V) (a b : V → Option N) (x : V → ℚ) (n : N) : ℚ := ∑ v ∈ vs, brings a b n v * x v

/-- whole number -/
def Whole (q : ℚ) : Prop := ∃ z : ℤ, q = z

theorem Whole.sub {p q : ℚ} (hp : Whole p) (hq : Whole q) : Whole (p - q) := by
  obtain ⟨x, rfl⟩ := hp
  obtain ⟨y, rfl⟩ := hq
  exact ⟨x - y, by push_cast; rfl⟩

theorem Whole.sum {ι : Type} {l : Finset ι} {f : ι → ℚ} (h : ∀ i ∈ l, Whole (f i)) : Whole (∑ i ∈ l, f i) := by
  classical
  induction l using Finset.induction_on with
  | empty => exact ⟨0, by simp⟩
  | insert a l ha ih =>
    rw [Finset.sum_insert ha]
    obtain ⟨x, hx⟩ := h a (Finset.mem_insert_self _ _)
    obtain ⟨y, hy⟩ := ih fun i hi => h i (Finset.mem_insert_of_mem hi)
    exact ⟨x + y, by rw [hx, hy]; push_cast; rfl⟩

variable {a b : V → Option N}

theorem brings_cases (n : N) (v : V) : brings a b n v = 0 ∨ brings a b n v = 1 ∨ brings a b n v = -1 := by
  unfold brings
  split_ifs <;> simp

/-- the places a flow counts at -/
theorem brings_places {n : N} {v : V} (h : brings a b n v ≠ 0) : a v = some n ∨ b v = some n := by
  by_contra hc
  rw [not_or] at hc
  apply h
  unfold brings
  rw [if_neg hc.1, if_neg hc.2, sub_zero]

theorem card_places (T : Finset N) (v : V) : (T.filter fun n => brings a b n v ≠ 0).card ≤ 2 := by
  have : T.filter (fun n => brings a b n v ≠ 0) ⊆ (a v).toFinset ∪ (b v).toFinset := by
    intro n hn
    rw [Finset.mem_union, Option.mem_toFinset, Option.mem_toFinset]
    exact brings_places (Finset.mem_filter.1 hn).2
  refine (Finset.card_le_card this).trans ((Finset.card_union_le _ _).trans ?_)
  have h : ∀ o : Option N, o.toFinset.card ≤ 1 := by
    intro o
    cases o <;> simp
  have := h (a v)
  have := h (b v)
  omega

/-- a flow that counts at two places comes from one and goes to the other -/
theorem sum_places {T : Finset N} {v : V} (h : (T.filter fun n => brings a b n v ≠ 0).card = 2) : ∑ n ∈ T, brings a b n v = 0 := by
  rw [← Finset.sum_filter_ne_zero]
  obtain ⟨p, q, hpq, e⟩ := Finset.card_eq_two.1 h
  rw [e, Finset.sum_pair hpq]
  have hp' : p ∈ T.filter fun n => brings a b n v ≠ 0 := by rw [e]; simp
  have hq' : q ∈ T.filter fun n => brings a b n v ≠ 0 := by rw [e]; simp
  have hp : brings a b p v ≠ 0 := (Finset.mem_filter.1 hp').2
  have hq : brings a b q v ≠ 0 := (Finset.mem_filter.1 hq').2
  unfold brings at hp hq ⊢
  rcases ha : a v with _ | x <;> rcases hb : b v with _ | y <;> simp only [ha, hb, Option.some.injEq, reduceCtorEq, if_false] at hp hq ⊢
  · simp at hp
  · exact absurd (show p = q by split_ifs at hp hq <;> simp_all) hpq
  · exact absurd (show p = q by split_ifs at hp hq <;> simp_all) hpq
  · split_ifs at hp hq ⊢ <;> simp_all

/-- flows none of which is whole, which bring whole quantities everywhere, can be changed without changing what they bring -/
theorem exists_change {F : Finset V} (hF : F.Nonempty) {x : V → ℚ} (hx : ∀ v ∈ F, ¬ Whole (x v))
    (hn : ∀ n, Whole (net F a b x n)) : ∃ δ : V → ℚ, (∃ v ∈ F, δ v ≠ 0) ∧ ∀ n, net F a b δ n = 0 := by
  classical
  let T : Finset N := (F.biUnion fun v => (a v).toFinset ∪ (b v).toFinset).filter fun n => ∃ v ∈ F, brings a b n v ≠ 0
  have hT : ∀ n, n ∈ T ↔ ∃ v ∈ F, brings a b n v ≠ 0 := by
    intro n
    refine ⟨fun h => (Finset.mem_filter.1 h).2, fun h => Finset.mem_filter.2 ⟨?_, h⟩⟩
    obtain ⟨v, hv, h⟩ := h
    refine Finset.mem_biUnion.2 ⟨v, hv, ?_⟩
    rw [Finset.mem_union, Option.mem_toFinset, Option.mem_toFinset]
    exact brings_places h
  -- two flows at least count at each place
  have h2 : ∀ n ∈ T, 2 ≤ (F.filter fun v => brings a b n v ≠ 0).card := by
    intro n hnT
    obtain ⟨v, hv, h0⟩ := (hT n).1 hnT
    have hpos : 0 < (F.filter fun v => brings a b n v ≠ 0).card := Finset.card_pos.2 ⟨v, Finset.mem_filter.2 ⟨hv, h0⟩⟩
    by_contra hc
    obtain ⟨w, e⟩ := Finset.card_eq_one.1 (show (F.filter fun v => brings a b n v ≠ 0).card = 1 by omega)
    have hw := Finset.mem_filter.1 (e ▸ Finset.mem_singleton_self w)
    have h1 : net F a b x n = brings a b n w * x w := by
      unfold net
      rw [← Finset.sum_filter_of_ne (p := fun v => brings a b n v ≠ 0) (fun v _ h h' => h (by rw [h', zero_mul])), e,
        Finset.sum_singleton]
    obtain ⟨z, hz⟩ := hn n
    rw [h1] at hz
    rcases brings_cases (a := a) (b := b) n w with h | h | h
    · exact hw.2 h
    · exact hx w hw.1 ⟨z, by rw [h, one_mul] at hz; exact hz⟩
    · exact hx w hw.1 ⟨-z, by rw [h] at hz; push_cast; linarith⟩
  have hcount := Finset.sum_card_bipartiteAbove_eq_sum_card_bipartiteBelow (s := T) (t := F) fun n v => brings a b n v ≠ 0
  have hle : 2 * T.card ≤ ∑ v ∈ F, (T.filter fun n => brings a b n v ≠ 0).card := by
    rw [mul_comm, ← smul_eq_mul, ← Finset.sum_const]
    refine (Finset.sum_le_sum h2).trans ?_
    exact le_of_eq hcount
  let L : (F → ℚ) →ₗ[ℚ] (T → ℚ) :=
    { toFun := fun y n => ∑ v : F, brings a b n.1 v.1 * y v
      map_add' := by
        intro y z
        funext n
        simp only [Pi.add_apply, mul_add, Finset.sum_add_distrib]
      map_smul' := by
        intro c y
        funext n
        simp only [Pi.smul_apply, smul_eq_mul, RingHom.id_apply, Finset.mul_sum]
        exact Finset.sum_congr rfl fun _ _ => by ring }
  have hker : ¬ Function.Injective L := by
    intro hinj
    have hcard : F.card ≤ T.card := by
      have := LinearMap.finrank_le_finrank_of_injective hinj
      simpa using this
    have hge : ∑ v ∈ F, (T.filter fun n => brings a b n v ≠ 0).card ≤ 2 * F.card := by
      rw [mul_comm, ← smul_eq_mul, ← Finset.sum_const]
      exact Finset.sum_le_sum fun v _ => card_places T v
    have hall : ∀ v ∈ F, (T.filter fun n => brings a b n v ≠ 0).card = 2 := by
      have e : ∑ v ∈ F, (T.filter fun n => brings a b n v ≠ 0).card = ∑ v ∈ F, 2 := by
        rw [Finset.sum_const, smul_eq_mul]
        omega
      exact (Finset.sum_eq_sum_iff_of_le fun v _ => card_places T v).1 e
    have hfr : Module.finrank ℚ (F → ℚ) = Module.finrank ℚ (T → ℚ) := by
      simp
      omega
    have hsurj := (LinearMap.injective_iff_surjective_of_finrank_eq_finrank hfr).1 hinj
    obtain ⟨y, hy⟩ := hsurj fun _ => 1
    have hsum : ∑ n : T, L y n = 0 := by
      show ∑ n : T, ∑ v : F, brings a b n.1 v.1 * y v = 0
      rw [Finset.sum_comm]
      apply Finset.sum_eq_zero
      intro v _
      rw [← Finset.sum_mul, Finset.sum_coe_sort T fun n => brings a b n v.1, sum_places (hall v.1 v.2), zero_mul]
    rw [hy] at hsum
    simp only [Finset.sum_const, Finset.card_univ, Fintype.card_coe, nsmul_eq_mul, mul_one, Nat.cast_eq_zero] at hsum
    have := hF.card_pos
    omega
  have : ∃ y, L y = 0 ∧ y ≠ 0 := by
    by_contra hc
    apply hker
    rw [← LinearMap.ker_eq_bot, LinearMap.ker_eq_bot']
    intro y hy
    by_contra h0
    exact hc ⟨y, hy, h0⟩
  obtain ⟨y, hy, h0⟩ := this
  obtain ⟨v, hv⟩ := Function.ne_iff.1 h0
  refine ⟨fun v => if h : v ∈ F then y ⟨v, h⟩ else 0, ⟨v.1, v.2, by simpa using hv⟩, fun n => ?_⟩
  have e : net F a b (fun v => if h : v ∈ F then y ⟨v, h⟩ else 0) n = ∑ v : F, brings a b n v.1 * y v := by
    unfold net
    rw [← Finset.sum_coe_sort F fun v => brings a b n v * if h : v ∈ F then y ⟨v, h⟩ else 0]
    exact Finset.sum_congr rfl fun v _ => by rw [dif_pos v.2]
  rw [e]
  by_cases hnT : n ∈ T
  · exact congrFun hy ⟨n, hnT⟩
  · apply Finset.sum_eq_zero
    intro v _
    have : brings a b n v.1 = 0 := by
      by_contra h
      exact hnT ((hT n).2 ⟨v.1, v.2, h⟩)
    rw [this, zero_mul]

/-- how far a flow can go before it is whole -/
def room (x d : ℚ) : ℚ := if 0 < d then (⌈x⌉ - x) / d else (x - ⌊x⌋) / (-d)

theorem room_pos {x d : ℚ} (hx : ¬ Whole x) (hd : d ≠ 0) : 0 < room x d := by
  unfold room
  split_ifs with h
  · apply div_pos _ h
    rcases lt_or_eq_of_le (Int.le_ceil x) with h' | h'
    · linarith
    · exact absurd ⟨_, h'⟩ hx
  · have hd' : d < 0 := lt_of_le_of_ne (not_lt.1 h) hd
    apply div_pos _ (by linarith)
    rcases lt_or_eq_of_le (Int.floor_le x) with h' | h'
    · linarith
    · exact absurd ⟨_, h'.symm⟩ hx

theorem room_whole {x d : ℚ} (hd : d ≠ 0) : Whole (x + room x d * d) := by
  unfold room
  split_ifs with h
  · exact ⟨⌈x⌉, by field_simp; ring⟩
  · exact ⟨⌊x⌋, by field_simp; ring⟩

theorem room_within {x d ε : ℚ} (h0 : 0 ≤ ε) (hε : d ≠ 0 → ε ≤ room x d) : ⌊x⌋ ≤ x + ε * d ∧ x + ε * d ≤ ⌈x⌉ := by
  have hf := Int.floor_le x
  have hc := Int.le_ceil x
  rcases lt_trichotomy d 0 with h | h | h
  · have := hε h.ne
    unfold room at this
    rw [if_neg (not_lt.2 h.le), le_div_iff₀ (by linarith)] at this
    have : ε * d ≤ 0 := mul_nonpos_of_nonneg_of_nonpos h0 h.le
    constructor <;> linarith
  · rw [h, mul_zero, add_zero]
    exact ⟨hf, hc⟩
  · have := hε h.ne'
    unfold room at this
    rw [if_pos h, le_div_iff₀ h] at this
    have : 0 ≤ ε * d := mul_nonneg h0 h.le
    constructor <;> linarith

theorem net_add (vs : Finset V) (x y : V → ℚ) (ε : ℚ) (n : N) :
    net vs a b (fun v => x v + ε * y v) n = net vs a b x n + ε * net vs a b y n := by
  unfold net
  rw [Finset.mul_sum, ← Finset.sum_add_distrib]
  exact Finset.sum_congr rfl fun _ _ => by ring

open Classical in
/-- flows that bring whole quantities everywhere can be rounded up or down to whole numbers, with no change in what they bring, at a
cost that is not higher -/
theorem exists_rounding (vs : Finset V) (c : V → ℚ) : ∀ (m : ℕ) (x : V → ℚ), (vs.filter fun v => ¬ Whole (x v)).card = m →
    (∀ n, Whole (net vs a b x n)) →
    ∃ y : V → ℚ, (∀ v ∈ vs, Whole (y v) ∧ ⌊x v⌋ ≤ y v ∧ y v ≤ ⌈x v⌉) ∧ (∀ n, net vs a b y n = net vs a b x n) ∧
      ∑ v ∈ vs, c v * y v ≤ ∑ v ∈ vs, c v * x v := by
  intro m
  induction m using Nat.strong_induction_on with
  | _ m ih =>
    intro x hm hn
    rcases Finset.eq_empty_or_nonempty (vs.filter fun v => ¬ Whole (x v)) with h | hF
    · refine ⟨x, fun v hv => ⟨?_, Int.floor_le _, Int.le_ceil _⟩, fun _ => rfl, le_refl _⟩
      by_contra hc
      exact absurd (Finset.mem_filter.2 ⟨hv, hc⟩) (h ▸ Finset.notMem_empty v)
    · set F := vs.filter fun v => ¬ Whole (x v) with hFdef
      have hsplit : ∀ n, net F a b x n = net vs a b x n - ∑ v ∈ vs.filter (fun v => ¬ ¬ Whole (x v)), brings a b n v * x v := by
        intro n
        unfold net
        rw [← Finset.sum_filter_add_sum_filter_not vs fun v => ¬ Whole (x v)]
        ring
      have hnF : ∀ n, Whole (net F a b x n) := by
        intro n
        rw [hsplit]
        refine (hn n).sub (.sum fun v hv => ?_)
        obtain ⟨z, hz⟩ := not_not.1 (Finset.mem_filter.1 hv).2
        rcases brings_cases (a := a) (b := b) n v with h | h | h
        · exact ⟨0, by rw [h]; simp⟩
        · exact ⟨z, by rw [h, hz, one_mul]⟩
        · exact ⟨-z, by rw [h, hz]; push_cast; ring⟩
      obtain ⟨δ0, ⟨v0, hv0, hd0⟩, hδ0⟩ := exists_change hF (fun v hv => (Finset.mem_filter.1 hv).2) hnF
      -- the change that does not cost more
      have : ∃ δ : V → ℚ, (∃ v ∈ F, δ v ≠ 0) ∧ (∀ v, v ∉ F → δ v = 0) ∧ (∀ n, net vs a b δ n = 0) ∧ ∑ v ∈ vs, c v * δ v ≤ 0 := by
        have hvs : ∀ (f : V → ℚ), ∑ v ∈ vs, f v * (if v ∈ F then δ0 v else 0) = ∑ v ∈ F, f v * δ0 v := by
          intro f
          rw [hFdef, Finset.sum_filter]
          refine Finset.sum_congr rfl fun v hv => ?_
          by_cases h : ¬ Whole (x v)
          · rw [if_pos (Finset.mem_filter.2 ⟨hv, h⟩), if_pos h]
          · have hv' : v ∉ vs.filter fun v => ¬ Whole (x v) := fun h' => h (Finset.mem_filter.1 h').2
            rw [if_neg hv', if_neg h, mul_zero]
        rcases le_total (∑ v ∈ F, c v * δ0 v) 0 with h | h
        · refine ⟨fun v => if v ∈ F then δ0 v else 0, ⟨v0, hv0, by simpa [hv0] using hd0⟩, fun v hv => if_neg hv, fun n => ?_, ?_⟩
          · exact (hvs _).trans (hδ0 n)
          · rw [hvs]
            exact h
        · refine ⟨fun v => -(if v ∈ F then δ0 v else 0), ⟨v0, hv0, by simpa [hv0] using hd0⟩, fun v hv => by beta_reduce; rw [if_neg hv, neg_zero],
            fun n => ?_, ?_⟩
          · unfold net
            simp only [mul_neg, Finset.sum_neg_distrib, hvs]
            have := hδ0 n
            unfold net at this
            rw [this, neg_zero]
          · simp only [mul_neg, Finset.sum_neg_distrib, hvs]
            linarith
      obtain ⟨δ, ⟨v1, hv1, hd1⟩, hout, hnet, hcost⟩ := this
      obtain ⟨w, hw, hmin⟩ := Finset.exists_min_image (F.filter fun v => δ v ≠ 0) (fun v => room (x v) (δ v))
        ⟨v1, Finset.mem_filter.2 ⟨hv1, hd1⟩⟩
      have hwF := (Finset.mem_filter.1 hw).1
      have hwd := (Finset.mem_filter.1 hw).2
      have hwx := (Finset.mem_filter.1 hwF).2
      set ε := room (x w) (δ w) with hε
      have hεpos : 0 < ε := room_pos hwx hwd
      have hin : ∀ v, ⌊x v⌋ ≤ x v + ε * δ v ∧ x v + ε * δ v ≤ ⌈x v⌉ := by
        intro v
        refine room_within hεpos.le fun hd => ?_
        by_cases hvF : v ∈ F
        · exact hmin v (Finset.mem_filter.2 ⟨hvF, hd⟩)
        · exact absurd (hout v hvF) hd
      have hless : (vs.filter fun v => ¬ Whole (x v + ε * δ v)).card < m := by
        rw [← hm]
        apply Finset.card_lt_card
        rw [Finset.ssubset_iff_of_subset]
        · exact ⟨w, hwF, fun h => (Finset.mem_filter.1 h).2 (room_whole hwd)⟩
        · intro v hv
          refine Finset.mem_filter.2 ⟨(Finset.mem_filter.1 hv).1, fun hwh => ?_⟩
          apply (Finset.mem_filter.1 hv).2
          rw [hout v fun h => (Finset.mem_filter.1 h).2 hwh, mul_zero, add_zero]
          exact hwh
      have hnet1 : ∀ n, net vs a b (fun v => x v + ε * δ v) n = net vs a b x n := by
        intro n
        rw [net_add, hnet n, mul_zero, add_zero]
      obtain ⟨y, hy1, hy2, hy3⟩ := ih _ hless (fun v => x v + ε * δ v) rfl fun n => by rw [hnet1]; exact hn n
      refine ⟨y, fun v hv => ⟨(hy1 v hv).1, ?_, ?_⟩, fun n => (hy2 n).trans (hnet1 n), hy3.trans ?_⟩
      · refine le_trans ?_ (hy1 v hv).2.1
        exact_mod_cast Int.le_floor.2 (hin v).1
      · refine le_trans (hy1 v hv).2.2 ?_
        exact_mod_cast Int.ceil_le.2 (hin v).2
      · have : ∑ v ∈ vs, c v * (x v + ε * δ v) = ∑ v ∈ vs, c v * x v + ε * ∑ v ∈ vs, c v * δ v := by
          rw [Finset.mul_sum, ← Finset.sum_add_distrib]
          exact Finset.sum_congr rfl fun _ _ => by ring
        rw [this]
        have := mul_nonpos_of_nonneg_of_nonpos hεpos.le hcost
        linarith

end Hadar.Rounding
