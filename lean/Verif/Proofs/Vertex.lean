import Mathlib.LinearAlgebra.FiniteDimensional.Lemmas
import Mathlib.LinearAlgebra.Dimension.Constructions
import Mathlib.LinearAlgebra.Dimension.StrongRankCondition
import Verif.Proofs.Prices

/-!
# Corners of a linear program

An optimal point of a linear program can be moved, at the same cost, until no more variables are strictly between their bounds than the
program has rows.
-/

namespace Hadar.Minimum

open Cmd

/-- more variables than rows leave a way to move that no row sees -/
theorem exists_unseen (log : List Cmd) (F : Finset Var) (h : (rowsOf log).length < F.card) :
    ∃ δ : Var → ℚ, (∃ v ∈ F, δ v ≠ 0) ∧ (∀ v, v ∉ F → δ v = 0) ∧ ∀ r ∈ rowsOf log, value (coefs log r) δ = 0 := by
  let ext : (F → ℚ) → Var → ℚ := fun d v => if hv : v ∈ F then d ⟨v, hv⟩ else 0
  have ext_add : ∀ a b, ext (a + b) = fun v => ext a v + ext b v := by
    intro a b
    funext v
    simp only [ext]
    split <;> simp
  have ext_smul : ∀ (c : ℚ) a, ext (c • a) = fun v => c * ext a v := by
    intro c a
    funext v
    simp only [ext]
    split <;> simp
  let f : (F → ℚ) →ₗ[ℚ] (Fin (rowsOf log).length → ℚ) :=
    { toFun := fun d i => value (coefs log (rowsOf log)[i]) (ext d)
      map_add' := fun a b => by
        funext i
        rw [ext_add, value_add]
        rfl
      map_smul' := fun c a => by
        funext i
        rw [ext_smul, value_smul]
        rfl }
  have hk : LinearMap.ker f ≠ ⊥ := LinearMap.ker_ne_bot_of_finrank_lt (by simpa using h)
  obtain ⟨d, hd, h0⟩ := (Submodule.ne_bot_iff _).mp hk
  refine ⟨ext d, ?_, fun v hv => by simp [ext, hv], fun r hr => ?_⟩
  · obtain ⟨v, hv⟩ := Function.ne_iff.mp h0
    exact ⟨v.1, v.2, by simpa [ext] using hv⟩
  · obtain ⟨i, hi, e⟩ := List.getElem_of_mem hr
    have := congrFun (LinearMap.mem_ker.mp hd) ⟨i, hi⟩
    have : value (coefs log (rowsOf log)[i]) (ext d) = 0 := this
    rwa [e] at this

/-- variables strictly between their bounds, moved in a direction where one goes down, can be moved until one is at a bound -/
theorem exists_hit {F : Finset Var} {x δ top : Var → ℚ} {B : Var → Prop} (hx : ∀ v ∈ F, 0 < x v ∧ (B v → x v < top v))
    (hd : ∃ v ∈ F, δ v < 0) : ∃ e : ℚ, 0 < e ∧ (∀ v ∈ F, 0 ≤ x v + e * δ v ∧ (B v → x v + e * δ v ≤ top v)) ∧
      ∃ v ∈ F, x v + e * δ v = 0 ∨ B v ∧ x v + e * δ v = top v := by
  classical
  let room : Var → ℚ := fun v => if δ v < 0 then x v / (-δ v) else (top v - x v) / δ v
  have hne : (F.filter fun v => δ v < 0 ∨ 0 < δ v ∧ B v).Nonempty := by
    obtain ⟨v, hv, h⟩ := hd
    exact ⟨v, Finset.mem_filter.mpr ⟨hv, .inl h⟩⟩
  obtain ⟨w, hw, hmin⟩ := Finset.exists_min_image _ room hne
  obtain ⟨hwF, hwd⟩ := Finset.mem_filter.mp hw
  have hpos : 0 < room w := by
    simp only [room]
    split
    · next h => exact div_pos (hx w hwF).1 (by linarith)
    · next h =>
      rcases hwd with h' | h'
      · exact absurd h' h
      · exact div_pos (by linarith [(hx w hwF).2 h'.2]) h'.1
  refine ⟨room w, hpos, fun v hv => ?_, w, hwF, ?_⟩
  · have hxv := hx v hv
    rcases lt_trichotomy (δ v) 0 with h | h | h
    · have hm := hmin v (Finset.mem_filter.mpr ⟨hv, .inl h⟩)
      have e : room v = x v / (-δ v) := if_pos h
      rw [e, le_div_iff₀ (by linarith)] at hm
      have : room w * δ v ≤ 0 := mul_nonpos_of_nonneg_of_nonpos hpos.le h.le
      exact ⟨by linarith, fun hB => by linarith [hxv.2 hB]⟩
    · rw [h, mul_zero, add_zero]
      exact ⟨hxv.1.le, fun hB => (hxv.2 hB).le⟩
    · have : 0 ≤ room w * δ v := mul_nonneg hpos.le h.le
      refine ⟨by linarith, fun hB => ?_⟩
      have hm := hmin v (Finset.mem_filter.mpr ⟨hv, .inr ⟨h, hB⟩⟩)
      have e : room v = (top v - x v) / δ v := if_neg (by linarith)
      rw [e, le_div_iff₀ h] at hm
      linarith
  · by_cases h : δ w < 0
    · left
      have e : room w = x w / (-δ w) := if_pos h
      rw [e]
      have : δ w ≠ 0 := h.ne
      field_simp
      ring
    · right
      rcases hwd with h' | h'
      · exact absurd h' h
      · refine ⟨h'.2, ?_⟩
        have e : room w = (top w - x w) / δ w := if_neg h
        rw [e]
        have : δ w ≠ 0 := h'.1.ne'
        field_simp
        ring

/-- a variable strictly between its bounds, with a lower bound of 0 and with, if any, `top v` as upper bound -/
def Loose (log : List Cmd) (top x : Var → ℚ) (v : Var) : Prop :=
  LowerOf log v 0 ∧ 0 < x v ∧ (UpperOf log v (top v) → x v < top v)

open Classical in
/-- the variables strictly between their bounds -/
noncomputable def looseSet (log : List Cmd) (top x : Var → ℚ) : Finset Var := (varsOf log).toFinset.filter (Loose log top x)

theorem mem_looseSet {log : List Cmd} {top x : Var → ℚ} {v : Var} : v ∈ looseSet log top x ↔ Loose log top x v := by
  classical
  unfold looseSet
  rw [Finset.mem_filter, List.mem_toFinset]
  refine ⟨fun h => h.2, fun h => ⟨?_, h⟩⟩
  rcases h.1 with ⟨ub, hm⟩ | ⟨pos, hm⟩
  · exact mem_varsOf_numVar hm
  · exact mem_varsOf_numVarInf hm

/-- an optimal point can be moved to a corner -/
theorem exists_corner {log : List Cmd} {top x : Var → ℚ} (hlow : ∀ v lb, LowerOf log v lb → lb = 0)
    (hup : ∀ v ub, UpperOf log v ub → ub = top v) (ho : Optimal log x) :
    ∃ y, Optimal log y ∧ (∀ v, ¬ Loose log top x v → y v = x v) ∧ (looseSet log top y).card ≤ (rowsOf log).length := by
  induction hn : (looseSet log top x).card using Nat.strong_induction_on generalizing x with
  | _ n ih =>
  by_cases hc : (looseSet log top x).card ≤ (rowsOf log).length
  · exact ⟨x, ho, fun _ _ => rfl, hc⟩
  obtain ⟨δ, ⟨v0, hv0, hd0⟩, hout, hrow⟩ := exists_unseen log (looseSet log top x) (by omega)
  have key : ∃ δ : Var → ℚ, (∃ v ∈ looseSet log top x, δ v < 0) ∧ (∀ v, v ∉ looseSet log top x → δ v = 0) ∧
      ∀ r ∈ rowsOf log, value (coefs log r) δ = 0 := by
    rcases lt_or_gt_of_ne hd0 with h | h
    · exact ⟨δ, ⟨v0, hv0, h⟩, hout, hrow⟩
    · refine ⟨fun v => (-1) * δ v, ⟨v0, hv0, by linarith⟩, fun v hv => by beta_reduce; rw [hout v hv, mul_zero], fun r hr => ?_⟩
      rw [value_smul, hrow r hr, mul_zero]
  clear hd0 hv0 hout hrow v0 δ
  obtain ⟨δ, hneg, hout, hrow⟩ := key
  have dir : ∀ η : Var → ℚ, (∀ v, v ∉ looseSet log top x → η v = 0) → (∀ r ∈ rowsOf log, value (coefs log r) η = 0) →
      Direction log x η := by
    intro η ho' hr'
    have hz : ∀ v, ¬ Loose log top x v → η v = 0 := fun v hv => ho' v fun h => hv (mem_looseSet.mp h)
    refine ⟨fun v lb ub hm => ⟨fun e => ?_, fun e => ?_⟩, fun v lb pos hm e => ?_, fun r lo hi hm => hr' r (mem_rowsOf.mpr ⟨lo, hi, hm⟩)⟩
    · rw [hz v fun h => ?_]
      have := hlow v lb (.inl ⟨ub, hm⟩)
      linarith [h.2.1]
    · rw [hz v fun h => ?_]
      have e' := hup v ub ⟨lb, hm⟩
      have := h.2.2 ⟨lb, e' ▸ hm⟩
      linarith
    · rw [hz v fun h => ?_]
      have := hlow v lb (.inr ⟨pos, hm⟩)
      linarith [h.2.1]
  have hcost : objective log δ = 0 := by
    have h1 := direction_cost ho (dir δ hout hrow)
    have h2 := direction_cost ho (dir (fun v => (-1) * δ v) (fun v hv => by rw [hout v hv, mul_zero])
      fun r hr => by rw [value_smul, hrow r hr, mul_zero])
    unfold objective at h1 h2 ⊢
    rw [value_smul] at h2
    linarith
  obtain ⟨e, he, hin, w, hw, hhit⟩ := exists_hit (top := top) (B := fun v => UpperOf log v (top v))
    (fun v hv => (mem_looseSet.mp hv).2) hneg
  have hsame : ∀ v, ¬ Loose log top x v → x v + e * δ v = x v := fun v hv => by
    rw [hout v fun h => hv (mem_looseSet.mp h), mul_zero, add_zero]
  have hf : Feasible log fun v => x v + e * δ v := by
    refine ⟨⟨fun v lb ub hm => ?_, fun v lb pos hm => ⟨?_, (ho.1.1.2 v lb pos hm).2⟩⟩, fun r lo hi hm => ?_⟩
    · by_cases hv : Loose log top x v
      · have h := hin v (mem_looseSet.mpr hv)
        have e1 := hlow v lb (.inl ⟨ub, hm⟩)
        have e2 := hup v ub ⟨lb, hm⟩
        rw [e1, e2]
        exact ⟨h.1, h.2 ⟨lb, e2 ▸ hm⟩⟩
      · beta_reduce
        rw [hsame v hv]
        exact ho.1.1.1 v lb ub hm
    · by_cases hv : Loose log top x v
      · rw [hlow v lb (.inr ⟨pos, hm⟩)]
        exact (hin v (mem_looseSet.mpr hv)).1
      · beta_reduce
        rw [hsame v hv]
        exact (ho.1.1.2 v lb pos hm).1
    · rw [value_add (coefs log r) x fun v => e * δ v, value_smul, hrow r (mem_rowsOf.mpr ⟨lo, hi, hm⟩), mul_zero, add_zero]
      exact ho.1.2 r lo hi hm
  have ho' : Optimal log fun v => x v + e * δ v := by
    refine ⟨hf, fun y hy => ?_⟩
    have := ho.2 y hy
    unfold objective at hcost this ⊢
    rw [value_add (objCoefs log) x fun v => e * δ v, value_smul, hcost, mul_zero, add_zero]
    exact this
  have hsub : looseSet log top (fun v => x v + e * δ v) ⊂ looseSet log top x := by
    refine Finset.ssubset_iff_subset_ne.mpr ⟨fun v hv => ?_, fun heq => ?_⟩
    · by_contra hno
      have hno := fun h => hno (mem_looseSet.mpr h)
      have h := mem_looseSet.mp hv
      refine hno ⟨h.1, ?_, fun hB => ?_⟩
      · have := h.2.1
        beta_reduce at this
        rwa [hsame v hno] at this
      · have := h.2.2 hB
        beta_reduce at this
        rwa [hsame v hno] at this
    · rw [← heq] at hw
      have h := mem_looseSet.mp hw
      rcases hhit with h0 | ⟨hB, h0⟩
      · exact absurd h0 h.2.1.ne'
      · exact absurd h0 (h.2.2 hB).ne
  obtain ⟨y, hy, hk, hc'⟩ := ih _ (hn ▸ Finset.card_lt_card hsub) ho' rfl
  refine ⟨y, hy, fun v hv => ?_, hc'⟩
  rw [hk v fun h => hv ?_]
  · exact hsame v hv
  · exact mem_looseSet.mp (hsub.1 (mem_looseSet.mpr h))

end Hadar.Minimum
