import Verif.Proofs.Minimum

/-!
# Multipliers of an optimal point

Lemma of Farkas by elimination of variables, and from it: at an optimal point of a linear program, the objective is a combination of the
constraints and of the bounds that are reached.
-/

namespace Hadar.Minimum

variable {V : Type} [DecidableEq V]

/-- combinations of inequalities with nonnegative coefficients -/
inductive Cone (S : List (Ineq V)) : Ineq V → Prop
  | zero : Cone S ⟨fun _ => 0, 0, 0⟩
  | add {i j : Ineq V} {p : ℚ} (hi : i ∈ S) (hp : 0 ≤ p) (hj : Cone S j) : Cone S (Ineq.comb p i 1 j)

theorem Cone.sum {S : List (Ineq V)} {i j : Ineq V} (hi : Cone S i) (hj : Cone S j) : Cone S (Ineq.comb 1 i 1 j) := by
  induction hi with
  | zero =>
    have : Ineq.comb 1 ⟨fun _ => 0, 0, 0⟩ 1 j = j := by simp [Ineq.comb]
    rw [this]
    exact hj
  | @add i' j' p hi hp _ ih =>
    have : Ineq.comb 1 (Ineq.comb p i' 1 j') 1 j = Ineq.comb p i' 1 (Ineq.comb 1 j' 1 j) := by
      simp only [Ineq.comb, one_mul, Ineq.mk.injEq]
      refine ⟨?_, by ring, by ring⟩
      funext v
      ring
    rw [this]
    exact .add hi hp ih

theorem Cone.smul {S : List (Ineq V)} {i : Ineq V} (hi : Cone S i) {q : ℚ} (hq : 0 ≤ q) :
    Cone S (Ineq.comb q i 0 i) := by
  induction hi with
  | zero =>
    have : Ineq.comb q ⟨fun _ : V => 0, 0, 0⟩ 0 ⟨fun _ => 0, 0, 0⟩ = ⟨fun _ => 0, 0, 0⟩ := by simp [Ineq.comb]
    rw [this]
    exact .zero
  | @add i' j' p hi hp _ ih =>
    have : Ineq.comb q (Ineq.comb p i' 1 j') 0 (Ineq.comb p i' 1 j') = Ineq.comb (q * p) i' 1 (Ineq.comb q j' 0 j') := by
      simp only [Ineq.comb, Ineq.mk.injEq]
      refine ⟨?_, by ring, by ring⟩
      funext v
      ring
    rw [this]
    exact .add hi (mul_nonneg hq hp) ih

theorem Cone.of_mem {S : List (Ineq V)} {i : Ineq V} (hi : i ∈ S) : Cone S i := by
  have := Cone.add (p := 1) hi zero_le_one Cone.zero
  have e : Ineq.comb 1 i 1 ⟨fun _ => 0, 0, 0⟩ = i := by simp [Ineq.comb]
  rwa [e] at this

theorem Cone.trans {S T : List (Ineq V)} (h : ∀ i ∈ T, Cone S i) {i : Ineq V} (hi : Cone T i) : Cone S i := by
  induction hi with
  | zero => exact .zero
  | @add i' j' p hi hp _ ih =>
    have := Cone.sum (Cone.smul (h i' hi) hp) ih
    have e : Ineq.comb 1 (Ineq.comb p i' 0 i') 1 j' = Ineq.comb p i' 1 j' := by simp [Ineq.comb]
    rwa [e] at this

theorem elim_cone {v : V} {S : List (Ineq V)} {i : Ineq V} (hi : i ∈ elim v S) : Cone S i ∧ i.c v = 0 := by
  rcases List.mem_append.mp hi with h | h
  · rw [List.mem_filter, decide_eq_true_eq] at h
    exact ⟨Cone.of_mem h.1, h.2⟩
  · clear hi
    obtain ⟨i, hi, h'⟩ := List.mem_flatMap.mp h
    obtain ⟨j, hj, rfl⟩ := List.mem_map.mp h'
    rw [List.mem_filter, decide_eq_true_eq] at hi hj
    constructor
    · have := Cone.sum (Cone.smul (Cone.of_mem hi.1) (q := -j.c v) (by linarith [hj.2]))
        (Cone.smul (Cone.of_mem hj.1) hi.2.le)
      have e : Ineq.comb 1 (Ineq.comb (-j.c v) i 0 i) 1 (Ineq.comb (i.c v) j 0 j) = Ineq.comb (-j.c v) i (i.c v) j := by
        simp [Ineq.comb]
      rwa [e] at this
    · simp only [Ineq.comb]
      ring

theorem cone_coef_zero {v : V} {T : List (Ineq V)} (h : ∀ i ∈ T, i.c v = 0) {i : Ineq V} (hi : Cone T i) : i.c v = 0 := by
  induction hi with
  | zero => rfl
  | add hi _ _ ih => simp [Ineq.comb, h _ hi, ih]

/-- a system without solution has a combination that is `0 ≤ b` with `b < 0` -/
theorem farkas {vs : List V} (hv : vs.Nodup) (S : List (Ineq V)) (z : ℚ) (h : ¬ ∃ x, ∀ i ∈ S, i.Holds vs x z) :
    ∃ i, Cone S i ∧ (∀ v ∈ vs, i.c v = 0) ∧ i.b < i.d * z := by
  induction vs generalizing S with
  | nil =>
    have : ∃ i ∈ S, ¬ Ineq.Holds i [] (fun _ => 0) z := by
      by_contra hc
      push Not at hc
      exact h ⟨fun _ => 0, hc⟩
    obtain ⟨i, hi, hn⟩ := this
    refine ⟨i, Cone.of_mem hi, by simp, ?_⟩
    simpa [Ineq.Holds, lin] using hn
  | cons v vs ih =>
    have hn := List.nodup_cons.mp hv
    rw [elim_spec hn.1] at h
    obtain ⟨i, hi, hc, hb⟩ := ih hn.2 (elim v S) h
    refine ⟨i, Cone.trans (fun j hj => (elim_cone hj).1) hi, ?_, hb⟩
    intro w hw
    rcases List.mem_cons.mp hw with rfl | hw
    · exact cone_coef_zero (fun j hj => (elim_cone hj).2) hi
    · exact hc w hw

theorem lin_smul (vs : List V) (c x : V → ℚ) (t : ℚ) : lin vs c (fun v => t * x v) = t * lin vs c x := by
  unfold lin
  induction vs with
  | nil => simp
  | cons v vs ih => simp only [List.map_cons, List.sum_cons, ih]; ring

theorem lin_add (vs : List V) (c x y : V → ℚ) : lin vs c (fun v => x v + y v) = lin vs c x + lin vs c y := by
  unfold lin
  induction vs with
  | nil => simp
  | cons v vs ih => simp only [List.map_cons, List.sum_cons, ih]; ring

/-- a linear form that is nonnegative wherever others are nonpositive is, up to its sign, a combination of them -/
theorem farkas_forms {vs : List V} (hv : vs.Nodup) (S : List (V → ℚ)) (o : V → ℚ)
    (h : ∀ x, (∀ c ∈ S, lin vs c x ≤ 0) → 0 ≤ lin vs o x) :
    ∃ i, Cone (S.map fun c => (⟨c, 0, 0⟩ : Ineq V)) i ∧ ∀ v ∈ vs, o v = -i.c v := by
  obtain ⟨i, hi, hc, hb⟩ := farkas hv (⟨o, 0, -1⟩ :: S.map fun c => (⟨c, 0, 0⟩ : Ineq V)) 0 (by
    rintro ⟨x, hx⟩
    simp only [List.forall_mem_cons, List.forall_mem_map, Ineq.Holds] at hx
    have := h x fun c hc => by linarith [hx.2 c hc]
    linarith [hx.1])
  have key : ∀ i, Cone (⟨o, 0, -1⟩ :: S.map fun c => (⟨c, 0, 0⟩ : Ineq V)) i →
      ∃ p : ℚ, 0 ≤ p ∧ i.d = 0 ∧ i.b = -p ∧ ∃ j, Cone (S.map fun c => (⟨c, 0, 0⟩ : Ineq V)) j ∧
        ∀ v, i.c v = p * o v + j.c v := by
    intro i hi
    induction hi with
    | zero => exact ⟨0, le_refl _, rfl, by simp, _, .zero, by simp⟩
    | @add i' j' q hi hq _ ih =>
      obtain ⟨p, hp, h1, h2, j, hj, h3⟩ := ih
      rcases List.mem_cons.mp hi with rfl | hi
      · refine ⟨q + p, add_nonneg hq hp, ?_, ?_, j, hj, ?_⟩
        · simp [Ineq.comb, h1]
        · simp [Ineq.comb, h2]; ring
        · intro v
          simp only [Ineq.comb, h3 v]
          ring
      · obtain ⟨c, hc, rfl⟩ := List.mem_map.mp hi
        refine ⟨p, hp, ?_, ?_, _, .add (List.mem_map.mpr ⟨c, hc, rfl⟩) hq hj, ?_⟩
        · simp [Ineq.comb, h1]
        · simp [Ineq.comb, h2]
        · intro v
          simp only [Ineq.comb, h3 v]
          ring
  obtain ⟨p, hp, h1, h2, j, hj, h3⟩ := key i hi
  have hp0 : 0 < p := by
    rw [h1, h2] at hb
    linarith
  refine ⟨_, Cone.smul hj (one_div_nonneg.mpr hp), fun v hvm => ?_⟩
  have := hc v hvm
  rw [h3 v] at this
  simp only [Ineq.comb]
  field_simp
  linarith

/-! ### Programs -/

open Cmd

theorem value_add (d : Dict Var ℚ) (x y : Var → ℚ) : value d (fun v => x v + y v) = value d x + value d y := by
  unfold value
  induction d with
  | nil => simp
  | cons p d ih => simp only [List.map_cons, List.sum_cons, ih]; ring

theorem value_smul (d : Dict Var ℚ) (x : Var → ℚ) (e : ℚ) : value d (fun v => e * x v) = e * value d x := by
  unfold value
  induction d with
  | nil => simp
  | cons p d ih => simp only [List.map_cons, List.sum_cons, ih]; ring

/-- the directions a point can be moved in -/
def Direction (log : List Cmd) (x δ : Var → ℚ) : Prop :=
  (∀ v lb ub, Cmd.numVar v lb ub ∈ log → (x v = lb → 0 ≤ δ v) ∧ (x v = ub → δ v ≤ 0)) ∧
  (∀ v lb pos, Cmd.numVarInf v lb pos ∈ log → x v = lb → 0 ≤ δ v) ∧
  ∀ r lo hi, Cmd.constraint r lo hi ∈ log → value (coefs log r) δ = 0

theorem step_one {l u y d : ℚ} (h : l ≤ y ∧ y ≤ u) (hd : (y = l → 0 ≤ d) ∧ (y = u → d ≤ 0)) :
    ∃ e : ℚ, 0 < e ∧ ∀ e' : ℚ, 0 < e' → e' ≤ e → l ≤ y + e' * d ∧ y + e' * d ≤ u := by
  rcases lt_trichotomy d 0 with h0 | h0 | h0
  · have hl : l < y := lt_of_le_of_ne h.1 fun e => by linarith [hd.1 e.symm]
    refine ⟨(y - l) / (-d), div_pos (by linarith) (by linarith), fun e' he he' => ?_⟩
    rw [le_div_iff₀ (by linarith : 0 < -d)] at he'
    constructor
    · linarith
    · have : e' * d ≤ 0 := mul_nonpos_of_nonneg_of_nonpos he.le h0.le
      linarith [h.2]
  · exact ⟨1, one_pos, fun e' _ _ => by rw [h0, mul_zero, add_zero]; exact h⟩
  · have hl : y < u := lt_of_le_of_ne h.2 fun e => by linarith [hd.2 e]
    refine ⟨(u - y) / d, div_pos (by linarith) h0, fun e' he he' => ?_⟩
    rw [le_div_iff₀ h0] at he'
    constructor
    · have : 0 ≤ e' * d := mul_nonneg he.le h0.le
      linarith [h.1]
    · linarith

theorem step_log {log : List Cmd} {x δ : Var → ℚ} (hx : Feasible log x) (hd : Direction log x δ) :
    ∃ e : ℚ, 0 < e ∧ Feasible log fun v => x v + e * δ v := by
  have key : ∀ l : List Cmd, (∀ c ∈ l, c ∈ log) → ∃ e : ℚ, 0 < e ∧ ∀ e' : ℚ, 0 < e' → e' ≤ e →
      (∀ v lb ub, Cmd.numVar v lb ub ∈ l → lb ≤ x v + e' * δ v ∧ x v + e' * δ v ≤ ub) ∧
      ∀ v lb pos, Cmd.numVarInf v lb pos ∈ l → lb ≤ x v + e' * δ v := by
    intro l
    induction l with
    | nil => exact fun _ => ⟨1, one_pos, by simp⟩
    | cons c l ih =>
      intro hl
      obtain ⟨e, he, h⟩ := ih fun c hc => hl c (List.mem_cons_of_mem _ hc)
      cases c with
      | numVar v lb ub =>
        have hm := hl _ List.mem_cons_self
        obtain ⟨e0, he0, h0⟩ := step_one (hx.1.1 v lb ub hm) (hd.1 v lb ub hm)
        refine ⟨min e e0, lt_min he he0, fun e' hp hle => ⟨fun v' lb' ub' hm' => ?_, fun v' lb' pos' hm' => ?_⟩⟩
        · rcases List.mem_cons.mp hm' with e1 | hm'
          · cases e1
            exact h0 e' hp (le_trans hle (min_le_right _ _))
          · exact (h e' hp (le_trans hle (min_le_left _ _))).1 v' lb' ub' hm'
        · rcases List.mem_cons.mp hm' with e1 | hm'
          · cases e1
          · exact (h e' hp (le_trans hle (min_le_left _ _))).2 v' lb' pos' hm'
      | numVarInf v lb pos =>
        have hm := hl _ List.mem_cons_self
        obtain ⟨e0, he0, h0⟩ := step_one (u := x v + 1 + |δ v|) (d := min (δ v) 0)
          ⟨(hx.1.2 v lb pos hm).1, by linarith [abs_nonneg (δ v)]⟩
          ⟨fun e => le_min (hd.2.1 v lb pos hm e) (le_refl _), fun _ => min_le_right _ _⟩
        refine ⟨min e e0, lt_min he he0, fun e' hp hle => ⟨fun v' lb' ub' hm' => ?_, fun v' lb' pos' hm' => ?_⟩⟩
        · rcases List.mem_cons.mp hm' with e1 | hm'
          · cases e1
          · exact (h e' hp (le_trans hle (min_le_left _ _))).1 v' lb' ub' hm'
        · rcases List.mem_cons.mp hm' with e1 | hm'
          · cases e1
            have h1 := (h0 e' hp (le_trans hle (min_le_right _ _))).1
            have h2 := mul_le_mul_of_nonneg_left (min_le_left (δ v) 0) hp.le
            linarith
          · exact (h e' hp (le_trans hle (min_le_left _ _))).2 v' lb' pos' hm'
      | constraint r lo hi =>
        refine ⟨e, he, fun e' hp hle => ⟨fun v' lb' ub' hm' => ?_, fun v' lb' pos' hm' => ?_⟩⟩
        · rcases List.mem_cons.mp hm' with e1 | hm'
          · cases e1
          · exact (h e' hp hle).1 v' lb' ub' hm'
        · rcases List.mem_cons.mp hm' with e1 | hm'
          · cases e1
          · exact (h e' hp hle).2 v' lb' pos' hm'
      | setCoef r v c =>
        refine ⟨e, he, fun e' hp hle => ⟨fun v' lb' ub' hm' => ?_, fun v' lb' pos' hm' => ?_⟩⟩
        · rcases List.mem_cons.mp hm' with e1 | hm'
          · cases e1
          · exact (h e' hp hle).1 v' lb' ub' hm'
        · rcases List.mem_cons.mp hm' with e1 | hm'
          · cases e1
          · exact (h e' hp hle).2 v' lb' pos' hm'
      | setObj v c =>
        refine ⟨e, he, fun e' hp hle => ⟨fun v' lb' ub' hm' => ?_, fun v' lb' pos' hm' => ?_⟩⟩
        · rcases List.mem_cons.mp hm' with e1 | hm'
          · cases e1
          · exact (h e' hp hle).1 v' lb' ub' hm'
        · rcases List.mem_cons.mp hm' with e1 | hm'
          · cases e1
          · exact (h e' hp hle).2 v' lb' pos' hm'
  obtain ⟨e, he, h⟩ := key log fun c hc => hc
  refine ⟨e, he, ⟨fun v lb ub hm => (h e he (le_refl _)).1 v lb ub hm,
    fun v lb pos hm => ⟨(h e he (le_refl _)).2 v lb pos hm, (hx.1.2 v lb pos hm).2⟩⟩, fun r lo hi hm => ?_⟩
  have := value_add (coefs log r) x fun v => e * δ v
  rw [this, value_smul, hd.2.2 r lo hi hm, mul_zero, add_zero]
  exact hx.2 r lo hi hm

theorem direction_cost {log : List Cmd} {x δ : Var → ℚ} (ho : Optimal log x) (hd : Direction log x δ) :
    0 ≤ objective log δ := by
  obtain ⟨e, he, hf⟩ := step_log ho.1 hd
  have := ho.2 _ hf
  unfold objective at this ⊢
  rw [value_add (objCoefs log) x fun v => e * δ v, value_smul] at this
  by_contra hn
  have : e * value (objCoefs log) δ < 0 := mul_neg_of_pos_of_neg he (not_le.mp hn)
  linarith

/-- the rows of a program -/
def rowsOf (log : List Cmd) : List RowId := log.filterMap fun
  | .constraint r _ _ => some r
  | _ => none

theorem mem_rowsOf {log : List Cmd} {r : RowId} : r ∈ rowsOf log ↔ ∃ lo hi, Cmd.constraint r lo hi ∈ log := by
  unfold rowsOf
  rw [List.mem_filterMap]
  constructor
  · rintro ⟨c, hc, h⟩
    cases c <;> simp at h
    subst h
    exact ⟨_, _, hc⟩
  · rintro ⟨lo, hi, h⟩
    exact ⟨_, h, rfl⟩

open Classical in
/-- the forms that are nonpositive on directions -/
noncomputable def dirForms (log : List Cmd) (x : Var → ℚ) : List (Var → ℚ) :=
  log.flatMap fun
    | .numVar v lb ub => (if x v = lb then [coef [(v, -1)]] else []) ++ (if x v = ub then [coef [(v, 1)]] else [])
    | .numVarInf v lb _ => if x v = lb then [coef [(v, -1)]] else []
    | .constraint r _ _ => [coef (coefs log r), coef ((coefs log r).map fun p => (p.1, -p.2))]
    | _ => []

theorem varsOf_nodup (log : List Cmd) : (varsOf log).Nodup := List.nodup_dedup _

theorem lin_unit {log : List Cmd} {v : Var} (h : v ∈ varsOf log) (q : ℚ) (x : Var → ℚ) :
    lin (varsOf log) (coef [(v, q)]) x = q * x v := by
  rw [lin_coef (varsOf_nodup log) _ (by
    intro p hp
    rw [List.mem_singleton.mp hp]
    exact h)]
  simp

theorem lin_row (log : List Cmd) (r : RowId) (x : Var → ℚ) :
    lin (varsOf log) (coef (coefs log r)) x = value (coefs log r) x := by
  rw [lin_coef (varsOf_nodup log) _ fun p hp => mem_varsOf_coefs hp]
  rfl

theorem lin_row_neg (log : List Cmd) (r : RowId) (x : Var → ℚ) :
    lin (varsOf log) (coef ((coefs log r).map fun p => (p.1, -p.2))) x = -value (coefs log r) x := by
  rw [lin_coef (varsOf_nodup log) _ (by
    intro p hp
    obtain ⟨q, hq, rfl⟩ := List.mem_map.mp hp
    exact mem_varsOf_coefs (p := q) hq), sum_neg_coefs]
  rfl

theorem direction_of_forms {log : List Cmd} {x δ : Var → ℚ}
    (h : ∀ c ∈ dirForms log x, lin (varsOf log) c δ ≤ 0) : Direction log x δ := by
  refine ⟨?_, ?_, ?_⟩
  · intro v lb ub hm
    constructor
    · intro e
      have := h (coef [(v, -1)]) (List.mem_flatMap.mpr ⟨_, hm, by simp [e]⟩)
      rw [lin_unit (mem_varsOf_numVar hm)] at this
      linarith
    · intro e
      have := h (coef [(v, 1)]) (List.mem_flatMap.mpr ⟨_, hm, by simp [e]⟩)
      rw [lin_unit (mem_varsOf_numVar hm)] at this
      linarith
  · intro v lb pos hm e
    have := h (coef [(v, -1)]) (List.mem_flatMap.mpr ⟨_, hm, by simp [e]⟩)
    rw [lin_unit (mem_varsOf_numVarInf hm)] at this
    linarith
  · intro r lo hi hm
    have h1 := h (coef (coefs log r)) (List.mem_flatMap.mpr ⟨_, hm, by simp⟩)
    have h2 := h (coef ((coefs log r).map fun p => (p.1, -p.2))) (List.mem_flatMap.mpr ⟨_, hm, by simp⟩)
    rw [lin_row] at h1
    rw [lin_row_neg] at h2
    linarith

/-- a lower bound of a variable -/
def LowerOf (log : List Cmd) (v : Var) (lb : ℚ) : Prop :=
  (∃ ub, Cmd.numVar v lb ub ∈ log) ∨ ∃ pos, Cmd.numVarInf v lb pos ∈ log

/-- an upper bound of a variable -/
def UpperOf (log : List Cmd) (v : Var) (ub : ℚ) : Prop := ∃ lb, Cmd.numVar v lb ub ∈ log

/-- what multipliers say of a linear form -/
def Explained (log : List Cmd) (x : Var → ℚ) (f : (Var → ℚ) → ℚ) : Prop :=
  ∃ (y : RowId → ℚ) (red : Var → ℚ),
    (∀ δ, f δ = ((rowsOf log).map fun r => y r * value (coefs log r) δ).sum +
      ((varsOf log).map fun v => red v * δ v).sum) ∧
    ∀ v, (0 < red v → LowerOf log v (x v)) ∧ (red v < 0 → UpperOf log v (x v))

theorem sum_single_row (L : List RowId) (r : RowId) (q : ℚ) (F : RowId → ℚ) :
    (L.map fun r' => (if r' = r then q else 0) * F r').sum = (L.count r : ℚ) * (q * F r) := by
  induction L with
  | nil => simp
  | cons a L ih =>
    simp only [List.map_cons, List.sum_cons, ih, List.count_cons]
    by_cases h : a = r
    · subst h
      simp
      ring
    · simp [h]

theorem Explained.row {log : List Cmd} {x : Var → ℚ} {f : (Var → ℚ) → ℚ} (h : Explained log x f) {r : RowId}
    (hr : r ∈ rowsOf log) (q : ℚ) : Explained log x fun δ => f δ + q * value (coefs log r) δ := by
  obtain ⟨y, red, h1, h2⟩ := h
  have hc : ((rowsOf log).count r : ℚ) ≠ 0 := by
    have := List.count_pos_iff.mpr hr
    exact_mod_cast this.ne'
  refine ⟨fun r' => y r' + (if r' = r then q / (rowsOf log).count r else 0), red, fun δ => ?_, h2⟩
  dsimp only
  rw [h1]
  have e : ((rowsOf log).map fun r' => (y r' + if r' = r then q / (rowsOf log).count r else 0) * value (coefs log r') δ).sum =
      ((rowsOf log).map fun r' => y r' * value (coefs log r') δ).sum +
      ((rowsOf log).map fun r' => (if r' = r then q / (rowsOf log).count r else 0) * value (coefs log r') δ).sum := by
    rw [← List.sum_map_add]
    congr 1
    apply List.map_congr_left
    intro r' _
    ring
  rw [e, sum_single_row (rowsOf log) r (q / (rowsOf log).count r) fun r' => value (coefs log r') δ]
  field_simp
  ring

theorem sum_single_var {L : List Var} (hL : L.Nodup) {v : Var} (hv : v ∈ L) (q : ℚ) (δ : Var → ℚ) :
    (L.map fun w => (if w = v then q else 0) * δ w).sum = q * δ v := by
  induction L with
  | nil => cases hv
  | cons a L ih =>
    have hn := List.nodup_cons.mp hL
    simp only [List.map_cons, List.sum_cons]
    rcases List.mem_cons.mp hv with e | h
    · subst e
      rw [if_pos rfl]
      have : (L.map fun w => (if w = v then q else 0) * δ w).sum = 0 := by
        apply List.sum_eq_zero
        intro z hz
        obtain ⟨w, hw, rfl⟩ := List.mem_map.mp hz
        have hne : w ≠ v := fun e => hn.1 (e ▸ hw)
        rw [if_neg hne, zero_mul]
      rw [this, add_zero]
    · have hne : a ≠ v := fun e => hn.1 (e ▸ h)
      rw [if_neg hne, zero_mul, zero_add, ih hn.2 h]

theorem Explained.var {log : List Cmd} {x : Var → ℚ} {f : (Var → ℚ) → ℚ} (h : Explained log x f) {v : Var}
    (hm : v ∈ varsOf log) (q : ℚ) (hq : (0 < q → LowerOf log v (x v)) ∧ (q < 0 → UpperOf log v (x v))) :
    Explained log x fun δ => f δ + q * δ v := by
  obtain ⟨y, red, h1, h2⟩ := h
  refine ⟨y, fun w => red w + (if w = v then q else 0), fun δ => ?_, fun w => ?_⟩
  · dsimp only
    have e : ((varsOf log).map fun w => (red w + if w = v then q else 0) * δ w).sum =
        ((varsOf log).map fun w => red w * δ w).sum + ((varsOf log).map fun w => (if w = v then q else 0) * δ w).sum := by
      rw [← List.sum_map_add]
      congr 1
      apply List.map_congr_left
      intro w _
      ring
    rw [h1, e, sum_single_var (varsOf_nodup log) hm]
    ring
  · dsimp only
    by_cases e : w = v
    · subst e
      rw [if_pos rfl]
      constructor
      · intro hp
        by_cases hr : 0 < red w
        · exact (h2 w).1 hr
        · exact hq.1 (by linarith [not_lt.mp hr])
      · intro hp
        by_cases hr : red w < 0
        · exact (h2 w).2 hr
        · exact hq.2 (by linarith [not_lt.mp hr])
    · rw [if_neg e, add_zero]
      exact h2 w

theorem lin_neg_eq {vs : List Var} {o c : Var → ℚ} (h : ∀ v ∈ vs, o v = -c v) (δ : Var → ℚ) :
    lin vs o δ = -lin vs c δ := by
  unfold lin
  induction vs with
  | nil => simp
  | cons v vs ih =>
    simp only [List.map_cons, List.sum_cons]
    rw [ih fun w hw => h w (List.mem_cons_of_mem _ hw), h v List.mem_cons_self]
    ring

theorem explained_cone {log : List Cmd} {x : Var → ℚ} {i : Ineq Var}
    (hi : Cone ((dirForms log x).map fun c => (⟨c, 0, 0⟩ : Ineq Var)) i) :
    Explained log x fun δ => -lin (varsOf log) i.c δ := by
  induction hi with
  | zero =>
    refine ⟨fun _ => 0, fun _ => 0, fun δ => ?_, fun v => ⟨fun h => absurd h (lt_irrefl _), fun h => absurd h (lt_irrefl _)⟩⟩
    simp [lin]
  | @add i j p hi hp _ ih =>
    obtain ⟨c, hc, rfl⟩ := List.mem_map.mp hi
    have e : (fun δ => -lin (varsOf log) (Ineq.comb p ⟨c, 0, 0⟩ 1 j).c δ) =
        fun δ => -lin (varsOf log) j.c δ + (-p) * lin (varsOf log) c δ := by
      funext δ
      show -lin (varsOf log) (fun v => p * c v + 1 * j.c v) δ = _
      rw [lin_comb]
      ring
    rw [e]
    obtain ⟨cmd, hcmd, hc⟩ := List.mem_flatMap.mp hc
    cases cmd with
    | numVar v lb ub =>
      rcases List.mem_append.mp hc with hc | hc
      · split at hc
        · rw [List.mem_singleton.mp hc]
          simp only [lin_unit (mem_varsOf_numVar hcmd)]
          rename_i e
          have := ih.var (mem_varsOf_numVar hcmd) p ⟨fun _ => .inl ⟨ub, e ▸ hcmd⟩, fun h => absurd h (not_lt.mpr hp)⟩
          simpa using this
        · cases hc
      · split at hc
        · rw [List.mem_singleton.mp hc]
          simp only [lin_unit (mem_varsOf_numVar hcmd)]
          rename_i e
          have := ih.var (mem_varsOf_numVar hcmd) (-p) ⟨fun h => absurd h (by linarith), fun _ => ⟨lb, e ▸ hcmd⟩⟩
          simpa using this
        · cases hc
    | numVarInf v lb pos =>
      dsimp only at hc
      split at hc
      · rw [List.mem_singleton.mp hc]
        simp only [lin_unit (mem_varsOf_numVarInf hcmd)]
        rename_i e
        have := ih.var (mem_varsOf_numVarInf hcmd) p ⟨fun _ => .inr ⟨pos, e ▸ hcmd⟩, fun h => absurd h (not_lt.mpr hp)⟩
        simpa using this
      · cases hc
    | constraint r lo hi' =>
      have hr := mem_rowsOf.mpr ⟨lo, hi', hcmd⟩
      rcases List.mem_cons.mp hc with rfl | hc
      · simp only [lin_row]
        exact ih.row hr (-p)
      · rw [List.mem_singleton.mp hc]
        simp only [lin_row_neg]
        have := ih.row hr p
        simpa using this
    | setCoef r v c => cases hc
    | setObj v c => cases hc

/-- the multipliers of an optimal point -/
theorem exists_duals {log : List Cmd} {x : Var → ℚ} (ho : Optimal log x) : Explained log x (objective log) := by
  obtain ⟨i, hi, hc⟩ := farkas_forms (varsOf_nodup log) (dirForms log x) (coef (objCoefs log)) (by
    intro δ h
    rw [lin_coef (varsOf_nodup log) _ fun p hp => mem_varsOf_obj hp]
    exact direction_cost ho (direction_of_forms h))
  have := explained_cone hi
  have e : objective log = fun δ => -lin (varsOf log) i.c δ := by
    funext δ
    rw [← lin_neg_eq hc, lin_coef (varsOf_nodup log) _ fun p hp => mem_varsOf_obj hp]
    rfl
  rw [e]
  exact this

end Hadar.Minimum
