import Verif.Proofs.Precision
import Verif.Props.Tax
import Verif.Props.Route
import Verif.Props.Invest
import Verif.Props.Whole

/-!
# Small errors in the data make small errors in the least cost (C129)
-/

namespace Hadar.Props

open Hadar Spec

variable {s s' : Study} {solver solver' : Solver} {b b' : Benchmark} {r r' : Result} {k k' : ℕ} {e f : ℚ} {P P' : Prices}

/-- C129: a study has prices that tell how much dearer it can be than another with about the same data: its result costs at most as much as
anything the other study can do, up to `e` for each unit of volume and to what `f` more of every quantity is worth at these prices -/
theorem C129 (hs : Ready s) (hself : NoSelfLink s) (h1 : OneStorage s) (hk : k < s.nbScn)
    (hr : solveLp solver b s = .ok r) (ha : Answers solver s k Cmd.Optimal) :
    ∃ P, Equilibrium s k (dispatchOf s r k) P ∧
      ∀ e f s' k' solver' b' r', Ready s' → Measured e f s k s' k' → k' < s'.nbScn → solveLp solver' b' s' = .ok r' →
        Answers solver' s' k' Cmd.Feasible →
        cost s k (dispatchOf s r k) ≤ cost s' k' (dispatchOf s' r' k') + e * dataVolume s' k' + f * unitsWorth s k P := by
  obtain ⟨P, he, hw⟩ := C81_worth hs hself h1 hk hr ha
  refine ⟨P, he, fun e f s' k' solver' b' r' hs' hm hk' hr' ha' => ?_⟩
  have hf := solved_feasible hs' (NoSelfLink.compared hm hself) (OneStorage.compared hm h1) hr' hk' ha'
  have h2 := C81_lower (P := P) hs' (drains_measured hm he.drains) hf
  have h3 := worth_precise (P := P) hm hf.bounds
  linarith

/-- C129: two studies with about the same data have about the same least cost, on both sides -/
theorem C129_both (hs : Ready s) (hs' : Ready s') (hself : NoSelfLink s) (h1 : OneStorage s) (hk : k < s.nbScn) (hk' : k' < s'.nbScn)
    (hm : Measured e f s k s' k') (hr : solveLp solver b s = .ok r) (hr' : solveLp solver' b' s' = .ok r')
    (ha : Answers solver s k Cmd.Optimal) (ha' : Answers solver' s' k' Cmd.Optimal) :
    ∃ P P', Equilibrium s k (dispatchOf s r k) P ∧ Equilibrium s' k' (dispatchOf s' r' k') P' ∧
      cost s k (dispatchOf s r k) ≤ cost s' k' (dispatchOf s' r' k') + e * dataVolume s' k' + f * unitsWorth s k P ∧
      cost s' k' (dispatchOf s' r' k') ≤ cost s k (dispatchOf s r k) + e * dataVolume s k + f * unitsWorth s' k' P' := by
  obtain ⟨P, he, h⟩ := C129 hs hself h1 hk hr ha
  obtain ⟨P', he', h'⟩ := C129 hs' (NoSelfLink.compared hm hself) (OneStorage.compared hm h1) hk' hr' ha'
  exact ⟨P, P', he, he', h _ _ _ _ _ _ _ hs' hm hk' hr' (answers_feasible_of_optimal ha'),
    h' _ _ _ _ _ _ _ hs hm.symm hk hr (answers_feasible_of_optimal ha)⟩

/-- C129, errors on costs only: the least cost changes by at most `e` for each unit that the solutions do -/
theorem C129_costs (hs : Ready s) (hs' : Ready s') (hk : k < s.nbScn) (hk' : k' < s'.nbScn) (hm : Measured e 0 s k s' k')
    (hr : solveLp solver b s = .ok r) (hr' : solveLp solver' b' s' = .ok r')
    (ha : Answers solver s k Cmd.Optimal) (ha' : Answers solver' s' k' Cmd.Optimal) :
    cost s k (dispatchOf s r k) ≤ cost s' k' (dispatchOf s' r' k') + e * weighed s' (fun _ _ => 1) (dispatchOf s' r' k') ∧
    cost s' k' (dispatchOf s' r' k') ≤ cost s k (dispatchOf s r k) + e * weighed s (fun _ _ => 1) (dispatchOf s r k) := by
  have near0 : ∀ x y : ℚ, Near 0 x y → x = y := fun _ _ h => le_antisymm (by linarith [h.1]) (by linarith [h.2])
  obtain ⟨h1, h2⟩ := C109_costs hs hs' hk hk' (Compared.imp (fun _ _ _ => trivial) near0 near0 hm) hr hr' ha ha'
  obtain rfl := Ready.result hs hr
  obtain rfl := Ready.result hs' hr'
  have ho := (optimal_result (Built.inv hs.built) hk _ b (Ready.answer hs hk ha)).1.bounds
  have ho' := (optimal_result (Built.inv hs'.built) hk' _ b' (Ready.answer hs' hk' ha')).1.bounds
  exact ⟨h1.trans (cost_precise hm ho'), h2.trans (cost_precise hm.symm ho)⟩

/-- C129, errors on costs only: what is best for wrong costs is nearly the best for the right ones -/
theorem C129_use (hs : Ready s) (hs' : Ready s') (hk : k < s.nbScn) (hk' : k' < s'.nbScn) (hm : Measured e 0 s k s' k')
    (hr : solveLp solver b s = .ok r) (hr' : solveLp solver' b' s' = .ok r')
    (ha : Answers solver s k Cmd.Optimal) (ha' : Answers solver' s' k' Cmd.Optimal) :
    cost s k (dispatchOf s r k) ≤ cost s k (dispatchOf s' r' k') ∧
    cost s k (dispatchOf s' r' k') ≤ cost s k (dispatchOf s r k) +
      e * (weighed s (fun _ _ => 1) (dispatchOf s r k) + weighed s' (fun _ _ => 1) (dispatchOf s' r' k')) := by
  have near0 : ∀ x y : ℚ, Near 0 x y → x = y := fun _ _ h => le_antisymm (by linarith [h.1]) (by linarith [h.2])
  obtain ⟨h1, h2⟩ := C109_costs hs hs' hk hk' (Compared.imp (fun _ _ _ => trivial) near0 near0 hm) hr hr' ha ha'
  obtain rfl := Ready.result hs hr
  obtain rfl := Ready.result hs' hr'
  have ho := (optimal_result (Built.inv hs.built) hk _ b (Ready.answer hs hk ha)).1.bounds
  have ho' := (optimal_result (Built.inv hs'.built) hk' _ b' (Ready.answer hs' hk' ha')).1.bounds
  have h3 := cost_precise hm ho'
  have h4 := cost_precise hm.symm ho
  exact ⟨h1, by linarith⟩

/-- C129: whatever a result does, it does not use more than the volume of the study -/
theorem C129_volume (hs : Ready s) (hk : k < s.nbScn) (hr : solveLp solver b s = .ok r) (ha : Answers solver s k Cmd.Optimal) :
    weighed s (fun _ _ => 1) (dispatchOf s r k) ≤ dataVolume s k := by
  obtain rfl := Ready.result hs hr
  exact used_le_volume (optimal_result (Built.inv hs.built) hk _ b (Ready.answer hs hk ha)).1.bounds

/-! ### A concrete case: `priceStudy` with data known up to a tenth for quantities and to a half for costs -/

def roughPriceCalls : List Call :=
  [.studyNetwork "elec", .netNode 0 "a", .nodeConsumption 0 "load" (.num 100) (.num (11/10)),
   .nodeProduction 0 "nuke" (.num (41/2)) (.num 15),
   .nodeStorage 0 ⟨"cell", .num 8, .num 2, .num (21/10), .num 1, 0, .num (1/2)⟩,
   .netNode 0 "b", .nodeConsumption 0 "load" (.num 100) (.num 6), .nodeProduction 0 "fuel" (.num 15) (.num (39/10)),
   .netLink 0 "a" "b" (.num (1/2)) (.num 4),
   .studyNetwork "gas", .netNode 1 "g", .nodeProduction 1 "well" (.num 12) (.num 10),
   .nodeToConverter 1 "conv" (.num (1/2)),
   .nodeConverter 1 "conv" "elec" "b" (.num 3) (.num 2)]

def roughPriceStudy : Study := ((World.start 2 1).run roughPriceCalls).study

/-- what is done then -/
def roughPriceAnswer : Var → ℚ
  | .prod _ "elec" "a" 0 => 32/10
  | .prod _ "elec" "b" 0 => 39/10
  | .link _ "elec" "a" 0 => 21/10
  | _ => 0

def roughPrices : Prices where
  node g d _ := if g = "gas" then 12 else if d = "a" then 41/2 else 21
  stored _ _ _ _ := 41/2
  used _ _ _ := 24

theorem roughPrice_ready : Ready roughPriceStudy where
  built := ⟨2, 1, _, rawCalls_of (by decide +kernel), rfl⟩
  complete := by unfold CompleteConverters; decide +kernel
  ratios := RatiosNonzero.usable (by unfold RatiosNonzero; decide +kernel)
  clean := cleanSources_of (by decide +kernel)

theorem roughPrice_measured : Measured (1/2) (1/10) priceStudy 0 roughPriceStudy 0 := by decide +kernel

theorem roughPrice_optimal : Answers (fun _ => roughPriceAnswer) roughPriceStudy 0 Cmd.Optimal :=
  optimal_of_prices (P := roughPrices) roughPrice_ready (noSelf_of (by decide +kernel)) (oneStorage_of (by decide +kernel))
    (by decide +kernel) (Cmd.feasible_of_check (by decide +kernel)) (equilibrium_of (by decide +kernel) (by decide +kernel))

def roughPriceResult : Result := resultAll roughPriceStudy (valsOf (fun _ => roughPriceAnswer) roughPriceStudy) ⟨[], [], 0, 0⟩

theorem roughPrice_solved : solveLp (fun _ => roughPriceAnswer) ⟨[], [], 0, 0⟩ roughPriceStudy = .ok roughPriceResult :=
  Ready.solve roughPrice_ready _ _

example := C129 priceStudy_ready priceStudy_noSelf priceStudy_one (by decide +kernel) priceStudy_solved priceAnswer_optimal

example := C129_both priceStudy_ready roughPrice_ready priceStudy_noSelf priceStudy_one (by decide +kernel) (by decide +kernel)
  roughPrice_measured priceStudy_solved roughPrice_solved priceAnswer_optimal roughPrice_optimal

/-- the costs are 244 and 250.3, the volumes 102 and what a unit of everything is worth 114 or 115.5 -/
example : cost priceStudy 0 (dispatchOf priceStudy priceResult 0) = 244 ∧
    cost roughPriceStudy 0 (dispatchOf roughPriceStudy roughPriceResult 0) = 2503 / 10 ∧
    dataVolume priceStudy 0 = 102 ∧ dataVolume roughPriceStudy 0 = 102 ∧
    unitsWorth priceStudy 0 somePrices = 114 ∧ unitsWorth roughPriceStudy 0 roughPrices = 231 / 2 := by decide +kernel

/-- `priceStudy` with other costs only -/
def wrongCostCalls : List Call :=
  [.studyNetwork "elec", .netNode 0 "a", .nodeConsumption 0 "load" (.num 100) (.num 1),
   .nodeProduction 0 "nuke" (.num (41/2)) (.num 15),
   .nodeStorage 0 ⟨"cell", .num 8, .num 2, .num 2, .num (1/2), 0, .num (1/2)⟩,
   .netNode 0 "b", .nodeConsumption 0 "load" (.num 100) (.num 6), .nodeProduction 0 "fuel" (.num (29/2)) (.num 4),
   .netLink 0 "a" "b" (.num (1/2)) (.num 4),
   .studyNetwork "gas", .netNode 1 "g", .nodeProduction 1 "well" (.num 12) (.num 10),
   .nodeToConverter 1 "conv" (.num (1/2)),
   .nodeConverter 1 "conv" "elec" "b" (.num 3) (.num 2)]

def wrongCostStudy : Study := ((World.start 2 1).run wrongCostCalls).study

theorem wrongCost_ready : Ready wrongCostStudy where
  built := ⟨2, 1, _, rawCalls_of (by decide +kernel), rfl⟩
  complete := by unfold CompleteConverters; decide +kernel
  ratios := RatiosNonzero.usable (by unfold RatiosNonzero; decide +kernel)
  clean := cleanSources_of (by decide +kernel)

theorem wrongCost_measured : Measured (1/2) 0 priceStudy 0 wrongCostStudy 0 := by decide +kernel

theorem wrongCost_optimal : Answers (fun _ => priceAnswer) wrongCostStudy 0 Cmd.Optimal :=
  optimal_of_prices (P := roughPrices) wrongCost_ready (noSelf_of (by decide +kernel)) (oneStorage_of (by decide +kernel))
    (by decide +kernel) (Cmd.feasible_of_check (by decide +kernel)) (equilibrium_of (by decide +kernel) (by decide +kernel))

def wrongCostResult : Result := resultAll wrongCostStudy (valsOf (fun _ => priceAnswer) wrongCostStudy) ⟨[], [], 0, 0⟩

theorem wrongCost_solved : solveLp (fun _ => priceAnswer) ⟨[], [], 0, 0⟩ wrongCostStudy = .ok wrongCostResult :=
  Ready.solve wrongCost_ready _ _

example := C129_costs priceStudy_ready wrongCost_ready (by decide +kernel) (by decide +kernel) wrongCost_measured priceStudy_solved
  wrongCost_solved priceAnswer_optimal wrongCost_optimal

example := C129_use priceStudy_ready wrongCost_ready (by decide +kernel) (by decide +kernel) wrongCost_measured priceStudy_solved
  wrongCost_solved priceAnswer_optimal wrongCost_optimal

example := C129_volume priceStudy_ready (by decide +kernel) priceStudy_solved priceAnswer_optimal

/-- 18 units are used, so the cost of 244 can be wrong by 9 at most: it is 241 -/
example : weighed priceStudy (fun _ _ => 1) (dispatchOf priceStudy priceResult 0) = 18 ∧
    cost wrongCostStudy 0 (dispatchOf wrongCostStudy wrongCostResult 0) = 241 := by decide +kernel

end Hadar.Props
