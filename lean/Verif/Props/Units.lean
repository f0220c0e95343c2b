import Verif.Proofs.Units
import Verif.Props.Sensitivity
import Verif.Props.Relative

/-!
# C141: each network has its own unit of energy
-/

namespace Hadar.Props

open Hadar Spec

variable {s s' : Study} {solver solver' : Solver} {b b' : Benchmark} {r r' : Result} {k k' : ℕ} {u : String → ℚ}

/-- C141: counting the energy of each network in another unit does not change the least cost, and the solution found in the former units,
translated, costs no more than the one found in the new units -/
theorem C141 (hu : ∀ g, 0 < u g) (hs : Ready s) (hs' : Ready s') (hk : k < s.nbScn) (hk' : k' < s'.nbScn) (h : OtherUnits u s k s' k')
    (hr : solveLp solver b s = .ok r) (hr' : solveLp solver' b' s' = .ok r') (ha : Answers solver s k Cmd.Optimal)
    (ha' : Answers solver' s' k' Cmd.Optimal) :
    cost s' k' (dispatchOf s' r' k') = cost s k (dispatchOf s r k) ∧
    cost s' k' (inUnits s u (dispatchOf s r k)) = cost s' k' (dispatchOf s' r' k') := by
  obtain rfl := Ready.result hs hr
  obtain rfl := Ready.result hs' hr'
  have hi := Built.inv hs.built
  have hi' := Built.inv hs'.built
  have hu' : ∀ g, 0 < 1 / u g := fun g => one_div_pos.mpr (hu g)
  have hb := OtherUnits.back hu h
  have ho := optimal_result hi hk _ b (Ready.answer hs hk ha)
  have ho' := optimal_result hi' hk' _ b' (Ready.answer hs' hk' ha')
  have h1 := ho'.2 _ (OtherUnits.codeFeasible hi hu h ho.1)
  have h2 := ho.2 _ (OtherUnits.codeFeasible hi' hu' hb ho'.1)
  rw [OtherUnits.cost hi h] at h1
  rw [OtherUnits.cost hi' hb] at h2
  have e := le_antisymm h1 h2
  exact ⟨e, by rw [e, OtherUnits.cost hi h]⟩

/-- C141: what can be done, what it costs and what costs least are the same in all units -/
theorem C141_flows (hu : ∀ g, 0 < u g) (hs : Ready s) (hs' : Ready s') (h : OtherUnits u s k s' k') (D : Dispatch) :
    (Spec.Feasible s k D → Spec.Feasible s' k' (inUnits s u D)) ∧ cost s' k' (inUnits s u D) = cost s k D ∧
    (Least s k D → Least s' k' (inUnits s u D)) := by
  have hi := Built.inv hs.built
  have hi' := Built.inv hs'.built
  have hu' : ∀ g, 0 < 1 / u g := fun g => one_div_pos.mpr (hu g)
  have hb := OtherUnits.back hu h
  refine ⟨OtherUnits.feasible hi hu h, OtherUnits.cost hi h, fun hD => ⟨OtherUnits.feasible hi hu h hD.1, fun E hE => ?_⟩⟩
  rw [OtherUnits.cost hi h, ← OtherUnits.cost hi' hb (D := E)]
  exact hD.2 _ (OtherUnits.feasible hi' hu' hb hE)

/-- C141: and back -/
theorem C141_back (hu : ∀ g, 0 < u g) (h : OtherUnits u s k s' k') : OtherUnits (fun g => 1 / u g) s' k' s k := OtherUnits.back hu h

/-! ### A concrete case -/

/-- `lpStudy`, one unit of electricity making half a new unit and one unit of gas making ten -/
def metricCalls : List Call :=
  [.studyNetwork "elec", .netNode 0 "a", .nodeConsumption 0 "load" (.num 200) (.num 5),
   .nodeProduction 0 "nuke" (.num 40) (.num (15/2)), .nodeProduction 0 "fuel" (.num 140) (.num (5/2)),
   .netNode 0 "b", .nodeConsumption 0 "load" (.num 200) (.num 3),
   .nodeStorage 0 ⟨"cell", .num 4, .num 1, .num 1, .num 0, 5/2, .num (9/10)⟩,
   .netLink 0 "a" "b" (.num 2) (.num 2),
   .studyNetwork "gas", .netNode 1 "g", .nodeProduction 1 "well" (.num (1/10)) (.num 100),
   .nodeToConverter 1 "conv" (.num (1/40)),
   .nodeConverter 1 "conv" "elec" "b" (.num (3/2)) (.num 4)]

def metricStudy : Study := ((World.start 1 1).run metricCalls).study

theorem metric_ready : Ready metricStudy where
  built := ⟨1, 1, metricCalls, rawCalls_of (by decide +kernel), rfl⟩
  complete := by unfold CompleteConverters; decide +kernel
  ratios := RatiosNonzero.usable (by unfold RatiosNonzero; decide +kernel)
  clean := cleanSources_of (by decide +kernel)

def metricUnits : String → ℚ := fun g => if g = "gas" then 10 else 1/2

theorem metricUnits_pos (g : String) : 0 < metricUnits g := by
  unfold metricUnits
  split_ifs <;> norm_num

theorem metric_units : OtherUnits metricUnits lpStudy 0 metricStudy 0 := by decide +kernel

example : ¬ OtherUnits (fun _ => 1/2) lpStudy 0 metricStudy 0 := by decide +kernel

/-- whatever the optimal solver, `metricStudy` costs 233, as `lpStudy` does -/
example (solver' : Solver) (r' : Result) (hr' : solveLp solver' ⟨[], [], 0, 0⟩ metricStudy = .ok r')
    (ha : Answers solver' metricStudy 0 Cmd.Optimal) : cost metricStudy 0 (dispatchOf metricStudy r' 0) = 233 := by
  have h := (C141 metricUnits_pos lpStudy_ready metric_ready (by decide +kernel) (by decide +kernel) metric_units
    (Ready.solve lpStudy_ready (fun _ => lpAnswer) ⟨[], [], 0, 0⟩) hr' lpAnswer_optimal ha).1
  refine h.trans ?_
  decide +kernel

/-- such solvers exist -/
example : ∃ solver, Answers solver metricStudy 0 Cmd.Optimal := by
  obtain ⟨solver, h⟩ := C71_solver
  exact ⟨solver, h _ metric_ready 0 (by decide +kernel) (limitsOk_of' (by decide +kernel) (by decide +kernel))⟩

/-- the least cost dispatch of `lpStudy`, translated, is a least cost dispatch of `metricStudy` -/
example : Least metricStudy 0 (inUnits lpStudy metricUnits (dispatchOf lpStudy (resultAll lpStudy (valsOf (fun _ => lpAnswer) lpStudy) ⟨[], [], 0, 0⟩) 0)) :=
  (C141_flows metricUnits_pos lpStudy_ready metric_ready metric_units _).2.2
    (solved_least lpStudy_ready lpStudy_noSelf lpStudy_one (Ready.solve lpStudy_ready _ _) (by decide +kernel) lpAnswer_optimal)

example := C141_back metricUnits_pos metric_units

end Hadar.Props
