import Verif.Proofs.Sensitivity
import Verif.Props.LPExamples
import Verif.Props.Tables

/-!
# C72, C73: how the least cost moves with the data
-/

namespace Hadar.Props

open Hadar Spec

variable {s s' : Study} {solver solver' : Solver} {b b' : Benchmark} {r r' : Result} {k k' : ℕ}

/-- C72: making productions, links, storages or converters larger, or anything cheaper, never makes the study cost more -/
theorem C72 (hs : Ready s) (hs' : Ready s') (hk : k < s.nbScn) (hk' : k' < s'.nbScn) (he : Easier s k s' k')
    (hp : RatiosNonneg s k) (hr : solveLp solver b s = .ok r) (hr' : solveLp solver' b' s' = .ok r')
    (ha : Answers solver s k Cmd.Feasible) (ha' : Answers solver' s' k' Cmd.Optimal) :
    cost s' k' (dispatchOf s' r' k') ≤ cost s k (dispatchOf s r k) := by
  obtain rfl := Ready.result hs hr
  obtain rfl := Ready.result hs' hr'
  have hf := (codeFeasible_iff (Built.inv hs.built) hk _ b).mp (Ready.answer hs hk ha)
  have ho := optimal_result (Built.inv hs'.built) hk' _ b' (Ready.answer hs' hk' ha')
  have hc : Carried 1 1 s k s' k' := Compared.imp (fun x y h => by linarith) (fun x y h => by linarith)
    (fun x y h => by rw [h, one_mul]) he
  have h1 := Carried.codeFeasible zero_le_one hc hp hf
  have h2 := Carried.cost zero_le_one hc hf
  rw [Dispatch.scale_one] at h1 h2
  linarith [ho.2 _ h1]

/-- C72: what is feasible stays feasible -/
theorem C72_feasible (he : Easier s k s' k') (hself : NoSelfLink s) (h1 : OneStorage s) (hp : RatiosNonneg s k)
    {D : Dispatch} (hD : Spec.Feasible s k D) : Spec.Feasible s' k' D := by
  have hc : Carried 1 1 s k s' k' := Compared.imp (fun x y h => by linarith) (fun x y h => by linarith)
    (fun x y h => by rw [h, one_mul]) he
  have h := Carried.codeFeasible zero_le_one hc hp (code_of_feasible hself hD)
  rw [Dispatch.scale_one] at h
  exact feasible_of_code (NoSelfLink.compared he hself) (OneStorage.compared he h1) h

/-- C73: multiplying all costs by `x` and all quantities by `y` multiplies the least cost by `x y` -/
theorem C73 {x y : ℚ} (hx : 0 < x) (hy : 0 < y) (hs : Ready s) (hs' : Ready s') (hk : k < s.nbScn)
    (hk' : k' < s'.nbScn) (he : Rescaled x y s k s' k') (hp : RatiosNonneg s k)
    (hr : solveLp solver b s = .ok r) (hr' : solveLp solver' b' s' = .ok r')
    (ha : Answers solver s k Cmd.Optimal) (ha' : Answers solver' s' k' Cmd.Optimal) :
    cost s' k' (dispatchOf s' r' k') = x * y * cost s k (dispatchOf s r k) := by
  obtain rfl := Ready.result hs hr
  obtain rfl := Ready.result hs' hr'
  have ho := optimal_result (Built.inv hs.built) hk _ b (Ready.answer hs hk ha)
  have ho' := optimal_result (Built.inv hs'.built) hk' _ b' (Ready.answer hs' hk' ha')
  have hc : Carried x y s k s' k' := Compared.imp (fun _ _ h => h.le) (fun _ _ h => h.ge) (fun _ _ h => h) he
  have hc' : Carried (1 / x) (1 / y) s' k' s k :=
    Compared.imp (fun u v h => by rw [h]; field_simp; exact le_refl _) (fun u v h => by rw [h]; field_simp; exact le_refl _)
      (fun u v h => by rw [h]; field_simp) (Compared.flip he)
  have hp' := RatiosNonneg.compared he hp
  have h1 := ho'.2 _ (Carried.codeFeasible hy.le hc hp ho.1)
  have h2 := Carried.cost hy.le hc ho.1
  have hy' : 0 ≤ 1 / y := (one_div_pos.mpr hy).le
  have h3 := ho.2 _ (Carried.codeFeasible hy' hc' hp' ho'.1)
  have h4 := Carried.cost hy' hc' ho'.1
  apply le_antisymm (le_trans h1 h2)
  have h5 := mul_le_mul_of_nonneg_left (le_trans h3 h4) (mul_pos hx hy).le
  have : x * y * (1 / x * (1 / y) * cost s' k' (dispatchOf s' (resultAll s' (valsOf solver' s') b') k')) =
      cost s' k' (dispatchOf s' (resultAll s' (valsOf solver' s') b') k') := by field_simp
  linarith

/-- C73: and the flows of a least cost dispatch, multiplied by `y`, are a least cost dispatch -/
theorem C73_flows {x y : ℚ} (hx : 0 < x) (hy : 0 < y) (he : Rescaled x y s k s' k') (hself : NoSelfLink s)
    (h1 : OneStorage s) (hp : RatiosNonneg s k)
    {D : Dispatch} (hD : Spec.Feasible s k D) (ho : ∀ E, Spec.Feasible s k E → cost s k D ≤ cost s k E) :
    Spec.Feasible s' k' (D.scale y) ∧ ∀ E, Spec.Feasible s' k' E → cost s' k' (D.scale y) ≤ cost s' k' E := by
  have hc : Carried x y s k s' k' := Compared.imp (fun _ _ h => h.le) (fun _ _ h => h.ge) (fun _ _ h => h) he
  have hc' : Carried (1 / x) (1 / y) s' k' s k :=
    Compared.imp (fun u v h => by rw [h]; field_simp; exact le_refl _) (fun u v h => by rw [h]; field_simp; exact le_refl _)
      (fun u v h => by rw [h]; field_simp) (Compared.flip he)
  have hp' := RatiosNonneg.compared he hp
  have hself' := NoSelfLink.compared he hself
  have h1' := OneStorage.compared he h1
  refine ⟨feasible_of_code hself' h1' (Carried.codeFeasible hy.le hc hp (code_of_feasible hself hD)), fun E hE => ?_⟩
  have hy' : 0 ≤ 1 / y := (one_div_pos.mpr hy).le
  have hE' := code_of_feasible hself' hE
  have h2 := Carried.cost hy.le hc (code_of_feasible hself hD)
  have h3 := ho _ (feasible_of_code hself h1 (Carried.codeFeasible hy' hc' hp' hE'))
  have h4 := Carried.cost hy' hc' hE'
  have h5 := mul_le_mul_of_nonneg_left (le_trans h3 h4) (mul_pos hx hy).le
  have : x * y * (1 / x * (1 / y) * cost s' k' E) = cost s' k' E := by field_simp
  linarith

/-! ### Concrete cases -/

/-- `lpStudy` with more of everything, cheaper -/
def easyCalls : List Call :=
  [.studyNetwork "elec", .netNode 0 "a", .nodeConsumption 0 "load" (.num 90) (.num 10),
   .nodeProduction 0 "nuke" (.num 20) (.num 16), .nodeProduction 0 "fuel" (.num 60) (.num 5),
   .netNode 0 "b", .nodeConsumption 0 "load" (.num 100) (.num 6),
   .nodeStorage 0 ⟨"cell", .num 9, .num 2, .num 3, .num (-1), 5, .num (9/10)⟩,
   .netLink 0 "a" "b" (.num 1) (.num 7),
   .studyNetwork "gas", .netNode 1 "g", .nodeProduction 1 "well" (.num (1/2)) (.num 20),
   .nodeToConverter 1 "conv" (.num (1/2)),
   .nodeConverter 1 "conv" "elec" "b" (.num 4) (.num 2)]

/-- `lpStudy` in other units: costs doubled, quantities divided by ten -/
def unitCalls : List Call :=
  [.studyNetwork "elec", .netNode 0 "a", .nodeConsumption 0 "load" (.num 200) (.num 1),
   .nodeProduction 0 "nuke" (.num 40) (.num (3/2)), .nodeProduction 0 "fuel" (.num 140) (.num (1/2)),
   .netNode 0 "b", .nodeConsumption 0 "load" (.num 200) (.num (3/5)),
   .nodeStorage 0 ⟨"cell", .num (4/5), .num (1/5), .num (1/5), .num 0, 1/2, .num (9/10)⟩,
   .netLink 0 "a" "b" (.num 2) (.num (2/5)),
   .studyNetwork "gas", .netNode 1 "g", .nodeProduction 1 "well" (.num 2) (.num 1),
   .nodeToConverter 1 "conv" (.num (1/2)),
   .nodeConverter 1 "conv" "elec" "b" (.num (3/10)) (.num 4)]

example : Easier lpStudy 0 ((World.start 1 1).run easyCalls).study 0 := by unfold Easier; decide +kernel

example : ¬ Easier ((World.start 1 1).run easyCalls).study 0 lpStudy 0 := by unfold Easier; decide +kernel

example : Rescaled 2 (1/10) lpStudy 0 ((World.start 1 1).run unitCalls).study 0 := by unfold Rescaled; decide +kernel

theorem lpStudy_nonneg : RatiosNonneg lpStudy 0 := by unfold RatiosNonneg; decide +kernel

theorem unit_ready : Ready ((World.start 1 1).run unitCalls).study where
  built := ⟨1, 1, unitCalls, rawCalls_of (by decide +kernel), rfl⟩
  complete := by unfold CompleteConverters; decide +kernel
  ratios := RatiosNonzero.usable (by unfold RatiosNonzero; decide +kernel)
  clean := cleanSources_of (by decide +kernel)

/-- `unitCalls` costs a fifth of `lpStudy`, which costs 233 (`LPExamples`), whatever the optimal solver -/
example (solver' : Solver) (r r' : Result)
    (hr : solveLp (fun _ => lpAnswer) ⟨[], [], 0, 0⟩ lpStudy = .ok r)
    (hr' : solveLp solver' ⟨[], [], 0, 0⟩ ((World.start 1 1).run unitCalls).study = .ok r')
    (ha : Answers solver' ((World.start 1 1).run unitCalls).study 0 Cmd.Optimal) :
    cost ((World.start 1 1).run unitCalls).study 0 (dispatchOf ((World.start 1 1).run unitCalls).study r' 0) =
      2 * (1/10) * cost lpStudy 0 (dispatchOf lpStudy r 0) :=
  C73 (by norm_num) (by norm_num) lpStudy_ready unit_ready (by decide +kernel) (by decide +kernel)
    (by unfold Rescaled; decide +kernel) lpStudy_nonneg hr hr' lpAnswer_optimal ha

/-! ### The theorems applied to concrete cases -/

theorem easy_ready : Ready ((World.start 1 1).run easyCalls).study where
  built := ⟨1, 1, easyCalls, rawCalls_of (by decide +kernel), rfl⟩
  complete := by unfold CompleteConverters; decide +kernel
  ratios := RatiosNonzero.usable (by unfold RatiosNonzero; decide +kernel)
  clean := cleanSources_of (by decide +kernel)

/-- `easyCalls` costs at most 233, whatever the optimal solver -/
example (solver' : Solver) (r' : Result) (hr' : solveLp solver' ⟨[], [], 0, 0⟩ ((World.start 1 1).run easyCalls).study = .ok r')
    (ha : Answers solver' ((World.start 1 1).run easyCalls).study 0 Cmd.Optimal) :
    cost ((World.start 1 1).run easyCalls).study 0 (dispatchOf ((World.start 1 1).run easyCalls).study r' 0) ≤ 233 := by
  have h := C72 lpStudy_ready easy_ready (by decide +kernel) (by decide +kernel) (by unfold Easier; decide +kernel) lpStudy_nonneg
    (Ready.solve lpStudy_ready (fun _ => lpAnswer) ⟨[], [], 0, 0⟩) hr' (fun st log hb => (lpAnswer_optimal st log hb).1) ha
  refine h.trans (le_of_eq ?_)
  decide +kernel

/-- what serves `lpStudy` serves `easyCalls` -/
example := C72_feasible (s := lpStudy) (k := 0) (s' := ((World.start 1 1).run easyCalls).study) (k' := 0)
  (by unfold Easier; decide +kernel) lpStudy_noSelf lpStudy_one lpStudy_nonneg
  (C22_least_cost_partial lpStudy_ready lpStudy_noSelf lpStudy_one (Ready.solve lpStudy_ready (fun _ => lpAnswer) ⟨[], [], 0, 0⟩)
    (by decide +kernel) lpAnswer_optimal).1

end Hadar.Props
