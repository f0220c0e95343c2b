import Verif.Proofs.Longer
import Verif.Props.Coarse

/-!
# C132: longer time steps never cost more
-/

namespace Hadar.Props

open Hadar Spec

variable {start : ℕ → ℕ} {s s' : Study} {solver solver' : Solver} {b b' : Benchmark} {r r' : Result} {k k' : ℕ}

/-- C132: the flows of any dispatch of the documented problem, added up over each long step, are a dispatch of the study with longer time
steps; it costs no more, and in each long step it loses what was lost during it -/
theorem C132_flows (h : Longer start s k s' k') {D : Dispatch} (hD : Spec.Feasible s k D) :
    Spec.Feasible s' k' (D.over start) ∧ cost s' k' (D.over start) ≤ cost s k D ∧
      ∀ τ, unserved s' (D.over start) τ = sumL (stepsOf start τ) fun t => unserved s D t :=
  ⟨Longer.feasible h hD, Longer.cost_le h hD.bounds, fun τ => Longer.lost_eq h D τ⟩

/-- C132: the result of the study with longer time steps costs no more than any result of the study itself: it bounds it from below -/
theorem C132 (h : Longer start s k s' k') (hs : Ready s) (hs' : Ready s') (hk : k < s.nbScn) (hk' : k' < s'.nbScn)
    (hr : solveLp solver b s = .ok r) (hr' : solveLp solver' b' s' = .ok r') (ha : Answers solver s k Cmd.Feasible)
    (ha' : Answers solver' s' k' Cmd.Optimal) : cost s' k' (dispatchOf s' r' k') ≤ cost s k (dispatchOf s r k) := by
  obtain rfl := Ready.result hs hr
  obtain rfl := Ready.result hs' hr'
  have hf := (codeFeasible_iff (Built.inv hs.built) hk _ b).mp (Ready.answer hs hk ha)
  have ho := optimal_result (Built.inv hs'.built) hk' _ b' (Ready.answer hs' hk' ha')
  exact (ho.2 _ (Longer.codeFeasible h hf)).trans (Longer.cost_le h hf.bounds)

/-- C132: what the study can serve, the study with longer time steps can -/
theorem C132_served (h : Longer start s k s' k') (hs : Ready s) (hself : NoSelfLink s) (h1 : OneStorage s)
    (hk : k < s.nbScn) (hr : solveLp solver b s = .ok r) (ha : Answers solver s k Cmd.Feasible)
    (h0 : ∀ t < s.horizon, unserved s (dispatchOf s r k) t = 0) :
    ∃ D, Spec.Feasible s' k' D ∧ ∀ τ < s'.horizon, unserved s' D τ = 0 := by
  obtain ⟨hf, _, hu⟩ := C132_flows h (solved_feasible hs hself h1 hr hk ha)
  refine ⟨_, hf, fun τ hτ => (hu τ).trans ?_⟩
  rw [sumL_congr (g := fun _ => 0) fun t ht => h0 t (h.cutting.lt hτ ht), sumL_zero]

/-! ### A concrete case -/

instance {h' : ℕ} {R : ℚ → ℚ → Prop} [∀ x y, Decidable (R x y)] (v v' : NumVal) : Decidable (Summed start h' k k' R v v') := by
  unfold Summed; infer_instance

instance {h' : ℕ} {R : ℚ → ℚ → Prop} [∀ x y, Decidable (R x y)] (v v' : NumVal) : Decidable (Throughout start h' k k' R v v') := by
  unfold Throughout; infer_instance

/-- five hours -/
def hourCalls : List Call :=
  [.studyNetwork "elec", .netNode 0 "b", .nodeConsumption 0 "load" (.num 80) (.num 3), .netNode 0 "a",
   .nodeConsumption 0 "load" (.num 100) (.array ⟨[5], [10, 10, 20, 10, 10], rfl⟩), .nodeProduction 0 "nuke" (.num 2) (.num 17),
   .nodeProduction 0 "fuel" (.array ⟨[5], [60, 70, 50, 40, 45], rfl⟩) (.num 10),
   .nodeStorage 0 ⟨"cell", .num 4, .num 2, .num 2, .num 1, 1, .num (1/2)⟩, .nodeToConverter 0 "conv" (.num (1/2)),
   .nodeConverter 0 "conv" "elec" "b" (.num 1) (.num 3), .netLink 0 "a" "b" (.num 1) (.num 5)]

def hourStudy : Study := made 5 1 hourCalls

/-- three hours, then two -/
def longCalls : List Call :=
  [.studyNetwork "elec", .netNode 0 "b", .nodeConsumption 0 "load" (.num 80) (.array ⟨[2], [9, 6], rfl⟩), .netNode 0 "a",
   .nodeConsumption 0 "load" (.num 100) (.array ⟨[2], [40, 20], rfl⟩), .nodeProduction 0 "nuke" (.num 2) (.array ⟨[2], [51, 34], rfl⟩),
   .nodeProduction 0 "fuel" (.array ⟨[2], [50, 40], rfl⟩) (.array ⟨[2], [30, 20], rfl⟩),
   .nodeStorage 0 ⟨"cell", .num 4, .array ⟨[2], [6, 4], rfl⟩, .array ⟨[2], [6, 4], rfl⟩, .num 1, 1, .num (1/2)⟩,
   .nodeToConverter 0 "conv" (.num (1/2)), .nodeConverter 0 "conv" "elec" "b" (.array ⟨[2], [3, 2], rfl⟩) (.num 3),
   .netLink 0 "a" "b" (.num 1) (.array ⟨[2], [15, 10], rfl⟩)]

def longStudy : Study := made 2 1 longCalls

def longStart : ℕ → ℕ := fun τ => if τ = 0 then 0 else if τ = 1 then 3 else 5

theorem hourStudy_ready : Ready hourStudy where
  built := ⟨5, 1, _, rawCalls_of (by decide +kernel), rfl⟩
  complete := by unfold CompleteConverters; decide +kernel
  ratios := RatiosNonzero.usable (by unfold RatiosNonzero; decide +kernel)
  clean := cleanSources_of (by decide +kernel)

theorem longStudy_ready : Ready longStudy where
  built := ⟨2, 1, _, rawCalls_of (by decide +kernel), rfl⟩
  complete := by unfold CompleteConverters; decide +kernel
  ratios := RatiosNonzero.usable (by unfold RatiosNonzero; decide +kernel)
  clean := cleanSources_of (by decide +kernel)

set_option synthInstance.maxHeartbeats 400000 in
set_option synthInstance.maxSize 2000 in
theorem long_nodes : ∀ z ∈ hourStudy.networks.zip longStudy.networks, z.1.1 = z.2.1 ∧ z.1.2.nodes.length = z.2.2.nodes.length ∧
    ∀ w ∈ z.1.2.nodes.zip z.2.2.nodes, w.1.1 = w.2.1 ∧
      (w.1.2.consumptions.length = w.2.2.consumptions.length ∧ ∀ e ∈ w.1.2.consumptions.zip w.2.2.consumptions,
        Throughout longStart longStudy.horizon 0 0 (fun x y => y ≤ x) e.1.cost e.2.cost ∧
        Summed longStart longStudy.horizon 0 0 Eq e.1.quantity e.2.quantity) ∧
      (w.1.2.productions.length = w.2.2.productions.length ∧ ∀ e ∈ w.1.2.productions.zip w.2.2.productions,
        Throughout longStart longStudy.horizon 0 0 (fun x y => y ≤ x) e.1.cost e.2.cost ∧
        Summed longStart longStudy.horizon 0 0 (fun x y => x ≤ y) e.1.quantity e.2.quantity) ∧
      (w.1.2.storages.length = w.2.2.storages.length ∧ ∀ e ∈ w.1.2.storages.zip w.2.2.storages,
        (∀ τ < longStudy.horizon, val e.1.capacity 0 (endOf longStart τ) ≤ val e.2.capacity 0 τ) ∧
        Summed longStart longStudy.horizon 0 0 (fun x y => x ≤ y) e.1.flowIn e.2.flowIn ∧
        Summed longStart longStudy.horizon 0 0 (fun x y => x ≤ y) e.1.flowOut e.2.flowOut ∧
        (∀ τ < longStudy.horizon, val e.2.cost 0 τ ≤ val e.1.cost 0 (endOf longStart τ) ∧
          ∀ t ∈ stepsOf longStart τ, t ≠ endOf longStart τ → 0 ≤ val e.1.cost 0 t) ∧
        e.1.initCapacity = e.2.initCapacity ∧ Throughout longStart longStudy.horizon 0 0 Eq e.1.eff e.2.eff) ∧
      (w.1.2.links.length = w.2.2.links.length ∧ ∀ e ∈ w.1.2.links.zip w.2.2.links, e.1.dest = e.2.dest ∧
        Throughout longStart longStudy.horizon 0 0 (fun x y => y ≤ x) e.1.cost e.2.cost ∧
        Summed longStart longStudy.horizon 0 0 (fun x y => x ≤ y) e.1.quantity e.2.quantity) := by decide +kernel

theorem long_converters : ∀ z ∈ hourStudy.converters.zip longStudy.converters, z.1.1 = z.2.1 ∧
    (z.1.2.srcRatios.length = z.2.2.srcRatios.length ∧ ∀ e ∈ z.1.2.srcRatios.zip z.2.2.srcRatios,
      e.1.1 = e.2.1 ∧ Throughout longStart longStudy.horizon 0 0 Eq e.1.2 e.2.2) ∧
    z.1.2.destNetwork = z.2.2.destNetwork ∧ z.1.2.destNode = z.2.2.destNode ∧
    (∀ τ < longStudy.horizon, ∀ t ∈ stepsOf longStart τ, fval z.2.2.cost 0 τ ≤ fval z.1.2.cost 0 t) ∧
    ∀ τ < longStudy.horizon, (sumL (stepsOf longStart τ) fun t => fval z.1.2.max 0 t) = fval z.2.2.max 0 τ := by decide +kernel

theorem long_of_hour : Longer longStart hourStudy 0 longStudy 0 where
  cutting := ⟨by decide +kernel, by decide +kernel, by decide +kernel⟩
  networks := forall₂_of_zip (by decide +kernel) fun z hz => by
    obtain ⟨e, hl, hn⟩ := long_nodes z hz
    refine ⟨e, forall₂_of_zip hl fun w hw => ?_⟩
    obtain ⟨e, ⟨c1, c2⟩, ⟨p1, p2⟩, ⟨s1, s2⟩, l1, l2⟩ := hn w hw
    exact ⟨e, forall₂_of_zip c1 c2, forall₂_of_zip p1 p2, forall₂_of_zip s1 s2, forall₂_of_zip l1 l2⟩
  converters := forall₂_of_zip (by decide +kernel) fun z hz => by
    obtain ⟨e, ⟨c1, c2⟩, h1, h2, h3, h4⟩ := long_converters z hz
    exact ⟨e, forall₂_of_zip c1 c2, h1, h2, h3, h4⟩

/-- the storage is filled for the third hour, where fuel is used as well -/
def hourAnswer : Var → ℚ
  | .prod 0 _ _ 0 => 15
  | .prod 1 _ _ 0 => 15
  | .prod 2 _ _ 0 => 17
  | .prod 3 _ _ 0 => 13
  | .prod 4 _ _ 0 => 27/2
  | .prod 2 _ _ 1 => 4
  | .fin 0 _ _ _ => 2
  | .fin 1 _ _ _ => 2
  | .cap 0 _ _ _ => 2
  | .cap 1 _ _ _ => 3
  | .fout 2 _ _ _ => 2
  | .cap _ _ _ _ => 1
  | .link 4 _ _ _ => 5/2
  | .link _ _ _ _ => 3
  | .convSrc 4 _ _ => 1
  | .convDest 4 _ => 1/2
  | _ => 0

theorem hourAnswer_feasible : Answers (fun _ => hourAnswer) hourStudy 0 Cmd.Feasible := feasibleAnswer_of (by decide +kernel)

theorem hour_solved : solveLp (fun _ => hourAnswer) ⟨[], [], 0, 0⟩ hourStudy =
    .ok (resultAll hourStudy (valsOf (fun _ => hourAnswer) hourStudy) ⟨[], [], 0, 0⟩) :=
  Ready.solve hourStudy_ready (fun _ => hourAnswer) _

/-- the hypotheses are met: whatever the optimal solver, the study with longer steps costs no more than this result -/
example (solver' : Solver) (r' : Result) (hr' : solveLp solver' ⟨[], [], 0, 0⟩ longStudy = .ok r')
    (ha' : Answers solver' longStudy 0 Cmd.Optimal) :
    cost longStudy 0 (dispatchOf longStudy r' 0) ≤
      cost hourStudy 0 (dispatchOf hourStudy (resultAll hourStudy (valsOf (fun _ => hourAnswer) hourStudy) ⟨[], [], 0, 0⟩) 0) :=
  C132 long_of_hour hourStudy_ready longStudy_ready (by decide +kernel) (by decide +kernel) hour_solved hr' hourAnswer_feasible ha'

example : ∃ D, Spec.Feasible longStudy 0 D ∧ ∀ τ < longStudy.horizon, unserved longStudy D τ = 0 :=
  C132_served long_of_hour hourStudy_ready (noSelf_of (by decide +kernel)) (oneStorage_of (by decide +kernel))
    (by decide +kernel) hour_solved hourAnswer_feasible (by decide +kernel)

example := C132_flows long_of_hour (solved_feasible hourStudy_ready (noSelf_of (by decide +kernel))
  (oneStorage_of (by decide +kernel)) hour_solved (by decide +kernel) hourAnswer_feasible)

/-- what is added up: nuclear energy of the first three hours; the storage is at 1 at the end of each long step -/
example : ((ofVars hourAnswer).over longStart).prod "elec" "a" 0 0 = 47 ∧ ((ofVars hourAnswer).over longStart).fin "elec" "a" 0 0 = 4 ∧
    ((ofVars hourAnswer).over longStart).cap "elec" "a" 0 0 = 1 ∧ ((ofVars hourAnswer).over longStart).link "elec" "a" 0 1 = 11/2 := by
  decide +kernel

/-- a dispatch of the study with longer steps: no fuel is needed, since the peak of the third hour cannot be seen -/
def longAnswer : Var → ℚ
  | .prod 0 _ _ 0 => 48
  | .prod 1 _ _ 0 => 26
  | .fout 0 _ _ _ => 1
  | .link 0 _ _ _ => 9
  | .link 1 _ _ _ => 6
  | _ => 0

theorem longAnswer_feasible : Answers (fun _ => longAnswer) longStudy 0 Cmd.Feasible := feasibleAnswer_of (by decide +kernel)

/-- energy is dear during the third hour -/
def hourPrices : Prices where
  node _ _ t := if t = 2 then 50 else 2
  stored _ _ _ t := if t ≤ 2 then 8 else 0
  used _ _ t := if t = 2 then 50 else 2

/-- longer steps can cost strictly less: what this dispatch costs is less than what all dispatches of the study cost -/
example {D : Dispatch} (hD : Spec.Feasible hourStudy 0 D) : cost longStudy 0 (ofVars longAnswer) < cost hourStudy 0 D :=
  lt_of_lt_of_le (by decide +kernel) (C81_lower (P := hourPrices) hourStudy_ready
    (fun p hp g d r hr t ht h0 => by simp only [hourPrices]; split_ifs <;> norm_num) hD)

end Hadar.Props
