import Verif.Proofs.LPDispatch
import Mathlib.Algebra.Order.Field.Basic
import Mathlib.Data.List.Dedup
import Mathlib.Tactic.Linarith
import Mathlib.Tactic.Ring

/-!
# A linear program with a feasible point and a bounded objective has an optimum

Over the rational numbers, by elimination of variables (Fourier and Motzkin): the values taken by the objective on the
feasible points are the solutions of finitely many inequalities in one unknown.
-/

namespace Hadar.Minimum

variable {V : Type} [DecidableEq V]

/-- value of a linear form on the variables `vs` -/
def lin (vs : List V) (c x : V → ℚ) : ℚ := (vs.map fun v => c v * x v).sum

/-- `c x + d z ≤ b` -/
structure Ineq (V : Type) where
  c : V → ℚ
  d : ℚ
  b : ℚ

def Ineq.Holds (i : Ineq V) (vs : List V) (x : V → ℚ) (z : ℚ) : Prop := lin vs i.c x + i.d * z ≤ i.b

/-- `p i + q j` -/
def Ineq.comb (p : ℚ) (i : Ineq V) (q : ℚ) (j : Ineq V) : Ineq V :=
  ⟨fun v => p * i.c v + q * j.c v, p * i.d + q * j.d, p * i.b + q * j.b⟩

theorem lin_cons (v : V) (vs : List V) (c x : V → ℚ) : lin (v :: vs) c x = c v * x v + lin vs c x := by
  simp [lin]

theorem lin_comb (vs : List V) (p q : ℚ) (c c' x : V → ℚ) :
    lin vs (fun v => p * c v + q * c' v) x = p * lin vs c x + q * lin vs c' x := by
  induction vs with
  | nil => simp [lin]
  | cons v vs ih => rw [lin_cons, lin_cons, lin_cons, ih]; ring

theorem lin_update {v : V} {vs : List V} (h : v ∉ vs) (c x : V → ℚ) (t : ℚ) :
    lin vs c (Function.update x v t) = lin vs c x := by
  unfold lin
  congr 1
  apply List.map_congr_left
  intro w hw
  have hne : w ≠ v := fun e => h (e ▸ hw)
  rw [Function.update_of_ne hne]

theorem exists_between (L U : List ℚ) (h : ∀ l ∈ L, ∀ u ∈ U, l ≤ u) :
    ∃ t, (∀ l ∈ L, l ≤ t) ∧ ∀ u ∈ U, t ≤ u := by
  induction L with
  | nil =>
    clear h
    induction U with
    | nil => exact ⟨0, by simp, by simp⟩
    | cons u U ih =>
      obtain ⟨t, -, ht⟩ := ih
      refine ⟨min t u, by simp, ?_⟩
      intro w hw
      rcases List.mem_cons.mp hw with rfl | hw
      · exact min_le_right _ _
      · exact le_trans (min_le_left _ _) (ht w hw)
  | cons l L ih =>
    obtain ⟨t, h1, h2⟩ := ih fun l' hl' => h l' (List.mem_cons_of_mem _ hl')
    refine ⟨max t l, ?_, ?_⟩
    · intro l' hl'
      rcases List.mem_cons.mp hl' with rfl | hl'
      · exact le_max_right _ _
      · exact le_trans (h1 l' hl') (le_max_left _ _)
    · intro u hu
      exact max_le (h2 u hu) (h l (by simp) u hu)

/-- the inequalities left once `v` is eliminated -/
def elim (v : V) (S : List (Ineq V)) : List (Ineq V) :=
  S.filter (fun i => i.c v = 0) ++
    (S.filter fun i => 0 < i.c v).flatMap fun i =>
      (S.filter fun j => j.c v < 0).map fun j => Ineq.comb (-j.c v) i (i.c v) j

theorem elim_spec {v : V} {vs : List V} (hv : v ∉ vs) (S : List (Ineq V)) (z : ℚ) :
    (∃ x, ∀ i ∈ S, i.Holds (v :: vs) x z) ↔ ∃ x, ∀ i ∈ elim v S, i.Holds vs x z := by
  constructor
  · rintro ⟨x, hx⟩
    refine ⟨x, fun i h => ?_⟩
    rcases List.mem_append.mp h with hi | h'
    · rw [List.mem_filter, decide_eq_true_eq] at hi
      have := hx i hi.1
      unfold Ineq.Holds at this ⊢
      rw [lin_cons, hi.2] at this
      linarith
    · obtain ⟨i, hi, hj'⟩ := List.mem_flatMap.mp h'
      obtain ⟨j, hj, rfl⟩ := List.mem_map.mp hj'
      rw [List.mem_filter, decide_eq_true_eq] at hi hj
      have h1 := hx i hi.1
      have h2 := hx j hj.1
      unfold Ineq.Holds at h1 h2 ⊢
      rw [lin_cons] at h1 h2
      simp only [Ineq.comb]
      rw [lin_comb]
      have e1 := mul_le_mul_of_nonneg_left h1 (by linarith [hj.2] : 0 ≤ -j.c v)
      have e2 := mul_le_mul_of_nonneg_left h2 (le_of_lt hi.2)
      linarith [e1, e2]
  · rintro ⟨x, hx⟩
    obtain ⟨t, hl, hu⟩ := exists_between
      ((S.filter fun j => j.c v < 0).map fun j => (j.b - j.d * z - lin vs j.c x) / j.c v)
      ((S.filter fun i => 0 < i.c v).map fun i => (i.b - i.d * z - lin vs i.c x) / i.c v) (by
        intro l hl u hu
        obtain ⟨j, hj, rfl⟩ := List.mem_map.mp hl
        obtain ⟨i, hi, rfl⟩ := List.mem_map.mp hu
        have h := hx (Ineq.comb (-j.c v) i (i.c v) j)
          (List.mem_append_right _ (List.mem_flatMap.mpr ⟨i, hi, List.mem_map.mpr ⟨j, hj, rfl⟩⟩))
        rw [List.mem_filter, decide_eq_true_eq] at hi hj
        unfold Ineq.Holds at h
        simp only [Ineq.comb] at h
        rw [lin_comb] at h
        rw [div_le_iff_of_neg hj.2, div_mul_eq_mul_div, div_le_iff₀ hi.2]
        linarith)
    refine ⟨Function.update x v t, fun i hi => ?_⟩
    unfold Ineq.Holds
    rw [lin_cons, lin_update hv, Function.update_self]
    rcases lt_trichotomy (i.c v) 0 with h | h | h
    · have := hl _ (List.mem_map.mpr ⟨i, List.mem_filter.mpr ⟨hi, by simpa using h⟩, rfl⟩)
      rw [div_le_iff_of_neg h] at this
      linarith
    · have := hx i (List.mem_append_left _ (List.mem_filter.mpr ⟨hi, by simpa using h⟩))
      unfold Ineq.Holds at this
      rw [h]
      linarith
    · have := hu _ (List.mem_map.mpr ⟨i, List.mem_filter.mpr ⟨hi, by simpa using h⟩, rfl⟩)
      rw [le_div_iff₀ h] at this
      linarith

/-- the values of `z` for which a system has solutions are the solutions of finitely many inequalities -/
theorem project {vs : List V} (hv : vs.Nodup) (S : List (Ineq V)) :
    ∃ T : List (ℚ × ℚ), ∀ z, (∃ x, ∀ i ∈ S, i.Holds vs x z) ↔ ∀ p ∈ T, p.1 * z ≤ p.2 := by
  induction vs generalizing S with
  | nil =>
    refine ⟨S.map fun i => (i.d, i.b), fun z => ?_⟩
    simp [Ineq.Holds, lin]
  | cons v vs ih =>
    obtain ⟨T, hT⟩ := ih (List.nodup_cons.mp hv).2 (elim v S)
    exact ⟨T, fun z => (elim_spec (List.nodup_cons.mp hv).1 S z).trans (hT z)⟩

theorem exists_least (T : List (ℚ × ℚ)) {m z1 : ℚ} (h1 : ∀ p ∈ T, p.1 * z1 ≤ p.2)
    (hm : ∀ z, (∀ p ∈ T, p.1 * z ≤ p.2) → m ≤ z) :
    ∃ z0, (∀ p ∈ T, p.1 * z0 ≤ p.2) ∧ ∀ z, (∀ p ∈ T, p.1 * z ≤ p.2) → z0 ≤ z := by
  have key : ∀ L : List ℚ, ∃ z0, (∀ l ∈ L, l ≤ z0) ∧ m ≤ z0 ∧ ∀ z, m ≤ z → (∀ l ∈ L, l ≤ z) → z0 ≤ z := by
    intro L
    induction L with
    | nil => exact ⟨m, by simp, le_refl _, fun z hz _ => hz⟩
    | cons l L ih =>
      obtain ⟨z0, h1, h2, h3⟩ := ih
      refine ⟨max z0 l, ?_, le_trans h2 (le_max_left _ _), ?_⟩
      · intro l' hl'
        rcases List.mem_cons.mp hl' with rfl | hl'
        · exact le_max_right _ _
        · exact le_trans (h1 l' hl') (le_max_left _ _)
      · intro z hz hl
        exact max_le (h3 z hz fun l' hl' => hl l' (List.mem_cons_of_mem _ hl')) (hl l (by simp))
  obtain ⟨z0, hl, hz, hleast⟩ := key ((T.filter fun p => p.1 < 0).map fun p => p.2 / p.1)
  have hle : ∀ z, (∀ p ∈ T, p.1 * z ≤ p.2) → z0 ≤ z := by
    intro z hz
    refine hleast z (hm z hz) fun l hl => ?_
    obtain ⟨p, hp, rfl⟩ := List.mem_map.mp hl
    rw [List.mem_filter, decide_eq_true_eq] at hp
    rw [div_le_iff_of_neg hp.2, mul_comm]
    exact hz p hp.1
  refine ⟨z0, fun p hp => ?_, hle⟩
  rcases lt_or_ge p.1 0 with h | h
  · have := hl _ (List.mem_map.mpr ⟨p, List.mem_filter.mpr ⟨hp, by simpa using h⟩, rfl⟩)
    rw [div_le_iff_of_neg h, mul_comm] at this
    exact this
  · exact le_trans (mul_le_mul_of_nonneg_left (hle z1 h1) h) (h1 p hp)

/-- a system of inequalities with a solution, on the solutions of which a linear form is bounded below: the form has a
least value -/
theorem exists_optimum {vs : List V} (hv : vs.Nodup) (S : List ((V → ℚ) × ℚ)) (o : V → ℚ) {x1 : V → ℚ}
    (h1 : ∀ i ∈ S, lin vs i.1 x1 ≤ i.2) {m : ℚ} (hm : ∀ x, (∀ i ∈ S, lin vs i.1 x ≤ i.2) → m ≤ lin vs o x) :
    ∃ x0, (∀ i ∈ S, lin vs i.1 x0 ≤ i.2) ∧
      ∀ x, (∀ i ∈ S, lin vs i.1 x ≤ i.2) → lin vs o x0 ≤ lin vs o x := by
  obtain ⟨T, hT⟩ := project hv
    (⟨o, -1, 0⟩ :: ⟨fun v => -1 * o v + 0 * o v, 1, 0⟩ :: S.map fun i => (⟨i.1, 0, i.2⟩ : Ineq V))
  have hsys : ∀ x z, (∀ i ∈ (⟨o, -1, 0⟩ :: ⟨fun v => -1 * o v + 0 * o v, 1, 0⟩ ::
      S.map fun i => (⟨i.1, 0, i.2⟩ : Ineq V)), Ineq.Holds i vs x z) ↔
      (∀ i ∈ S, lin vs i.1 x ≤ i.2) ∧ z = lin vs o x := by
    intro x z
    simp only [List.forall_mem_cons, List.forall_mem_map, Ineq.Holds, lin_comb]
    constructor
    · rintro ⟨h1, h2, h3⟩
      exact ⟨fun i hi => by linarith [h3 i hi], by linarith⟩
    · rintro ⟨h1, rfl⟩
      exact ⟨by linarith, by linarith, fun i hi => by linarith [h1 i hi]⟩
  have hval : ∀ z, (∀ p ∈ T, p.1 * z ≤ p.2) ↔ ∃ x, (∀ i ∈ S, lin vs i.1 x ≤ i.2) ∧ z = lin vs o x := by
    intro z
    rw [← hT z]
    exact exists_congr fun x => hsys x z
  obtain ⟨z0, h0, hl⟩ := exists_least T (m := m) (z1 := lin vs o x1) ((hval _).mpr ⟨x1, h1, rfl⟩) (by
    intro z hz
    obtain ⟨x, hx, rfl⟩ := (hval z).mp hz
    exact hm x hx)
  obtain ⟨x0, hx0, rfl⟩ := (hval z0).mp h0
  exact ⟨x0, hx0, fun x hx => hl _ ((hval _).mpr ⟨x, hx, rfl⟩)⟩

/-! ### Linear forms as dictionaries -/

/-- the coefficient of a variable -/
def coef (d : List (V × ℚ)) (v : V) : ℚ := (d.map fun p => if p.1 = v then p.2 else 0).sum

theorem lin_single {vs : List V} (hv : vs.Nodup) {w : V} (hw : w ∈ vs) (q : ℚ) (x : V → ℚ) :
    lin vs (fun v => if w = v then q else 0) x = q * x w := by
  induction vs with
  | nil => cases hw
  | cons v vs ih =>
    rw [lin_cons]
    have hn := List.nodup_cons.mp hv
    by_cases h : w = v
    · subst h
      have : lin vs (fun v => if w = v then q else 0) x = 0 := by
        unfold lin
        apply List.sum_eq_zero
        intro y hy
        obtain ⟨u, hu, rfl⟩ := List.mem_map.mp hy
        have hne : w ≠ u := fun e => hn.1 (e ▸ hu)
        simp only [if_neg hne, zero_mul]
      rw [this, if_pos rfl, add_zero]
    · rw [if_neg h, zero_mul, zero_add]
      exact ih hn.2 ((List.mem_cons.mp hw).resolve_left h)

theorem lin_coef {vs : List V} (hv : vs.Nodup) (d : List (V × ℚ)) (hd : ∀ p ∈ d, p.1 ∈ vs) (x : V → ℚ) :
    lin vs (coef d) x = (d.map fun p => p.2 * x p.1).sum := by
  induction d with
  | nil =>
    unfold lin
    apply List.sum_eq_zero
    intro y hy
    obtain ⟨u, hu, rfl⟩ := List.mem_map.mp hy
    simp [coef]
  | cons p d ih =>
    have e : coef (p :: d) = fun v => 1 * (if p.1 = v then p.2 else 0) + 1 * coef d v := by
      funext v
      simp [coef]
    rw [e, lin_comb, lin_single hv (hd p (by simp)), ih fun q hq => hd q (List.mem_cons_of_mem _ hq)]
    simp

/-! ### Programs -/

theorem mem_ofList {K W : Type} [DecidableEq K] {l : List (K × W)} {p : K × W} (h : p ∈ Dict.ofList l) : p ∈ l := by
  have key : ∀ (l : List (K × W)) (d : Dict K W), p ∈ l.foldl (fun d q => d.set q.1 q.2) d → p ∈ d ∨ p ∈ l := by
    intro l
    induction l with
    | nil => exact fun d h => .inl h
    | cons q l ih =>
      intro d h
      rcases ih _ h with h | h
      · rcases Dict.mem_set h with h | h
        · exact .inl h
        · exact .inr (by rw [h]; exact List.mem_cons_self)
      · exact .inr (List.mem_cons_of_mem _ h)
  rcases key l [] h with h | h
  · cases h
  · exact h

/-- the variables of a program -/
def varsOf (log : List Cmd) : List Var :=
  (log.filterMap fun
    | .numVar v _ _ => some v
    | .numVarInf v _ _ => some v
    | .setCoef _ v _ => some v
    | .setObj v _ => some v
    | _ => none).dedup

theorem mem_varsOf_numVar {log : List Cmd} {v : Var} {lb ub : ℚ} (h : Cmd.numVar v lb ub ∈ log) : v ∈ varsOf log :=
  List.mem_dedup.mpr (List.mem_filterMap.mpr ⟨_, h, rfl⟩)

theorem mem_varsOf_numVarInf {log : List Cmd} {v : Var} {lb : ℚ} {pos : Bool} (h : Cmd.numVarInf v lb pos ∈ log) :
    v ∈ varsOf log :=
  List.mem_dedup.mpr (List.mem_filterMap.mpr ⟨_, h, rfl⟩)

theorem mem_varsOf_coefs {log : List Cmd} {r : RowId} {p : Var × ℚ} (h : p ∈ Cmd.coefs log r) : p.1 ∈ varsOf log := by
  have := mem_ofList h
  obtain ⟨c, hc, he⟩ := List.mem_filterMap.mp this
  unfold Cmd.coefOf at he
  split at he
  · split at he
    · cases he
      exact List.mem_dedup.mpr (List.mem_filterMap.mpr ⟨_, hc, rfl⟩)
    · cases he
  · cases he

theorem mem_varsOf_obj {log : List Cmd} {p : Var × ℚ} (h : p ∈ Cmd.objCoefs log) : p.1 ∈ varsOf log := by
  have := mem_ofList h
  obtain ⟨c, hc, he⟩ := List.mem_filterMap.mp this
  unfold Cmd.objOf at he
  split at he
  · cases he
    exact List.mem_dedup.mpr (List.mem_filterMap.mpr ⟨_, hc, rfl⟩)
  · cases he

/-- the inequalities of a program -/
def ineqsOf (log : List Cmd) : List ((Var → ℚ) × ℚ) :=
  log.flatMap fun
    | .numVar v lb ub => [(coef [(v, 1)], ub), (coef [(v, -1)], -lb)]
    | .numVarInf v lb pos => (coef [(v, -1)], -lb) :: if pos then [] else [(coef [], -1)]
    | .constraint r lo hi => [(coef (Cmd.coefs log r), hi), (coef ((Cmd.coefs log r).map fun p => (p.1, -p.2)), -lo)]
    | _ => []

theorem sum_neg_coefs (d : List (Var × ℚ)) (x : Var → ℚ) :
    ((d.map fun p => (p.1, -p.2)).map fun p => p.2 * x p.1).sum = -(d.map fun p => p.2 * x p.1).sum := by
  induction d with
  | nil => simp
  | cons p d ih =>
    simp only [List.map_cons, List.sum_cons, ih]
    ring

theorem holds_ineqsOf (log : List Cmd) (x : Var → ℚ) :
    (∀ i ∈ ineqsOf log, lin (varsOf log) i.1 x ≤ i.2) ↔ Cmd.Feasible log x := by
  have hv : (varsOf log).Nodup := List.nodup_dedup _
  have hvar : ∀ v ∈ varsOf log, ∀ q : ℚ, lin (varsOf log) (coef [(v, q)]) x = q * x v := by
    intro v h q
    rw [lin_coef hv _ (by
      intro p hp
      rw [List.mem_singleton.mp hp]
      exact h)]
    simp
  have hnum : ∀ v lb ub, Cmd.numVar v lb ub ∈ log → ∀ q : ℚ, lin (varsOf log) (coef [(v, q)]) x = q * x v :=
    fun v lb ub h => hvar v (mem_varsOf_numVar h)
  have hinf : ∀ v lb pos, Cmd.numVarInf v lb pos ∈ log → ∀ q : ℚ, lin (varsOf log) (coef [(v, q)]) x = q * x v :=
    fun v lb pos h => hvar v (mem_varsOf_numVarInf h)
  have hnil : lin (varsOf log) (coef []) x = 0 := by
    rw [lin_coef hv _ (by simp)]
    simp
  have hrow : ∀ r, lin (varsOf log) (coef (Cmd.coefs log r)) x = Cmd.value (Cmd.coefs log r) x := by
    intro r
    rw [lin_coef hv _ fun p hp => mem_varsOf_coefs hp]
    rfl
  have hrow' : ∀ r, lin (varsOf log) (coef ((Cmd.coefs log r).map fun p => (p.1, -p.2))) x =
      -Cmd.value (Cmd.coefs log r) x := by
    intro r
    rw [lin_coef hv _ (by
      intro p hp
      obtain ⟨q, hq, rfl⟩ := List.mem_map.mp hp
      exact mem_varsOf_coefs (p := q) hq), sum_neg_coefs]
    rfl
  constructor
  · intro h
    refine ⟨⟨fun v lb ub hm => ?_, fun v lb pos hm => ?_⟩, fun r lo hi hm => ?_⟩
    · have h1 := h (coef [(v, 1)], ub) (List.mem_flatMap.mpr ⟨_, hm, by simp⟩)
      have h2 := h (coef [(v, -1)], -lb) (List.mem_flatMap.mpr ⟨_, hm, by simp⟩)
      rw [hnum v lb ub hm] at h1 h2
      constructor <;> linarith
    · have h2 := h (coef [(v, -1)], -lb) (List.mem_flatMap.mpr ⟨_, hm, by simp⟩)
      rw [hinf v lb pos hm] at h2
      refine ⟨by linarith, ?_⟩
      cases pos with
      | true => rfl
      | false =>
        have h1 := h (coef [], -1) (List.mem_flatMap.mpr ⟨_, hm, by simp⟩)
        rw [hnil] at h1
        linarith
    · have h1 := h (coef (Cmd.coefs log r), hi) (List.mem_flatMap.mpr ⟨_, hm, by simp⟩)
      have h2 := h (coef ((Cmd.coefs log r).map fun p => (p.1, -p.2)), -lo) (List.mem_flatMap.mpr ⟨_, hm, by simp⟩)
      rw [hrow] at h1
      rw [hrow'] at h2
      constructor <;> linarith
  · rintro ⟨hb, hc⟩ i hi
    obtain ⟨c, hm, hi⟩ := List.mem_flatMap.mp hi
    cases c with
    | numVar v lb ub =>
      have := hb.1 v lb ub hm
      simp only [List.mem_cons, List.not_mem_nil, or_false] at hi
      rcases hi with rfl | rfl
      · rw [hnum v lb ub hm]; linarith
      · rw [hnum v lb ub hm]; linarith
    | numVarInf v lb pos =>
      obtain ⟨h1, rfl⟩ := hb.2 v lb pos hm
      simp only [if_true, List.mem_cons, List.not_mem_nil, or_false] at hi
      rw [hi, hinf v lb true hm]
      linarith
    | constraint r lo hi' =>
      have := hc r lo hi' hm
      simp only [List.mem_cons, List.not_mem_nil, or_false] at hi
      rcases hi with rfl | rfl
      · rw [hrow]; linarith
      · rw [hrow']; linarith
    | setCoef => cases hi
    | setObj => cases hi

/-- every term of a sum is bounded below, so is the sum -/
theorem value_bounded {d : List (Var × ℚ)} {P : (Var → ℚ) → Prop}
    (h : ∀ p ∈ d, ∃ lb ub : ℚ, ∀ x, P x → lb ≤ x p.1 ∧ x p.1 ≤ ub) :
    ∃ m : ℚ, ∀ x, P x → m ≤ (d.map fun p => p.2 * x p.1).sum := by
  induction d with
  | nil => exact ⟨0, fun x _ => by simp⟩
  | cons p d ih =>
    obtain ⟨m, hm⟩ := ih fun q hq => h q (List.mem_cons_of_mem _ hq)
    obtain ⟨lb, ub, hb⟩ := h p (by simp)
    refine ⟨min (p.2 * lb) (p.2 * ub) + m, fun x hx => ?_⟩
    simp only [List.map_cons, List.sum_cons]
    refine add_le_add ?_ (hm x hx)
    rcases le_total 0 p.2 with h0 | h0
    · exact le_trans (min_le_left _ _) (mul_le_mul_of_nonneg_left (hb x hx).1 h0)
    · exact le_trans (min_le_right _ _) (mul_le_mul_of_nonpos_left (hb x hx).2 h0)

/-- a program with a feasible point, all the variables of the objective of which have bounds, has an optimal point -/
theorem exists_optimal {log : List Cmd} {x : Var → ℚ} (hx : Cmd.Feasible log x)
    (hb : ∀ p ∈ Cmd.objCoefs log, ∃ lb ub, Cmd.numVar p.1 lb ub ∈ log) : ∃ y, Cmd.Optimal log y := by
  have hv : (varsOf log).Nodup := List.nodup_dedup _
  have ho : ∀ x, lin (varsOf log) (coef (Cmd.objCoefs log)) x = Cmd.objective log x := by
    intro x
    rw [lin_coef hv _ fun p hp => mem_varsOf_obj hp]
    rfl
  obtain ⟨m, hm⟩ := value_bounded (d := Cmd.objCoefs log) (P := Cmd.Feasible log) (by
    intro p hp
    obtain ⟨lb, ub, h⟩ := hb p hp
    exact ⟨lb, ub, fun x hx => hx.1.1 _ _ _ h⟩)
  obtain ⟨y, h1, h2⟩ := exists_optimum hv (ineqsOf log) (coef (Cmd.objCoefs log)) (x1 := x)
    ((holds_ineqsOf log x).mpr hx) (m := m) (by
      intro x hx
      rw [ho]
      exact hm x ((holds_ineqsOf log x).mp hx))
  refine ⟨y, (holds_ineqsOf log y).mp h1, fun z hz => ?_⟩
  rw [← ho, ← ho]
  exact h2 z ((holds_ineqsOf log z).mpr hz)

end Hadar.Minimum

namespace Hadar

open Spec

/-- every variable of the objective of a study has bounds -/
theorem obj_has_bounds (s : Study) (k : ℕ) {p : Var × ℚ} (h : p ∈ Cmd.objCoefs (fullLog s k)) :
    ∃ lb ub, Cmd.numVar p.1 lb ub ∈ fullLog s k := by
  have h := Minimum.mem_ofList h
  rw [obj_fullLog] at h
  obtain ⟨t, ht, h⟩ := List.mem_flatMap.mp h
  have ht : t < s.horizon := by simpa using ht
  rcases List.mem_append.mp h with h | h
  · obtain ⟨g, hg, h⟩ := List.mem_flatMap.mp h
    obtain ⟨d, hd, h⟩ := List.mem_flatMap.mp h
    suffices h' : ∃ lb ub, Cmd.numVar p.1 lb ub ∈ (lpNodeOf g.1 d.1 k t d.2).numVars by
      obtain ⟨lb, ub, h'⟩ := h'
      refine ⟨lb, ub, mem_timeLog_node ⟨g.2, hg, hd⟩ ht ?_⟩
      unfold nodeLog
      simp only [List.mem_append]
      exact .inl (.inl (.inl h'))
    unfold objNode at h
    simp only [List.mem_append, List.mem_map] at h
    unfold LPNode.numVars lpNodeOf
    simp only [List.mem_append, List.mem_map, List.mem_flatMap, List.map_map, List.mem_cons, List.not_mem_nil,
      or_false, Function.comp_def]
    rcases h with ((⟨q, hq, rfl⟩ | ⟨q, hq, rfl⟩) | ⟨q, hq, rfl⟩) | ⟨q, hq, rfl⟩
    · exact ⟨_, _, .inl (.inl (.inl ⟨q, hq, rfl⟩))⟩
    · exact ⟨_, _, .inl (.inl (.inr ⟨q, hq, rfl⟩))⟩
    · exact ⟨_, _, .inl (.inr ⟨_, ⟨q, hq, rfl⟩, .inl rfl⟩)⟩
    · exact ⟨_, _, .inr ⟨q, hq, rfl⟩⟩
  · obtain ⟨q, hq, h⟩ := List.mem_flatMap.mp h
    rw [List.mem_singleton] at h
    subst h
    refine ⟨0, fval q.2.max k t, mem_timeLog_conv hq ht ?_⟩
    unfold convLog convVars
    simp only [List.mem_append, List.mem_singleton]
    exact .inl (.inl (.inl (.inr trivial)))

theorem exists_optimal_vars {s : Study} (hi : StudyInv s) {k : ℕ} {D : Dispatch} (h : CodeFeasible s k D) :
    ∃ x, Cmd.Optimal (fullLog s k) x :=
  Minimum.exists_optimal (x := toVars D) (by rw [feasible_iff hi, ofVars_toVars]; exact h)
    fun _ hp => obj_has_bounds s k hp

theorem exists_optimal_code {s : Study} (hi : StudyInv s) {k : ℕ} {D : Dispatch} (h : CodeFeasible s k D) :
    ∃ D, CodeFeasible s k D ∧ ∀ D', CodeFeasible s k D' → cost s k D ≤ cost s k D' := by
  obtain ⟨x, hx, ho⟩ := exists_optimal_vars hi h
  refine ⟨ofVars x, (feasible_iff hi k x).mp hx, fun D' hD' => ?_⟩
  have := ho (toVars D') (by rw [feasible_iff hi, ofVars_toVars]; exact hD')
  rw [objective_eq hi, objective_eq hi, ofVars_toVars] at this
  exact this

end Hadar
