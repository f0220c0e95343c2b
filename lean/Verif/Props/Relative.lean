import Verif.Proofs.Relative
import Verif.Props.Energy
import Verif.Props.Tax
import Verif.Props.Invest

/-!
# C140: costs are relative
-/

namespace Hadar.Props

open Hadar Spec

variable {s s' : Study} {solver solver' : Solver} {b b' : Benchmark} {r r' : Result} {k k' : ℕ} {v : Values} {x : ℕ → ℚ}

/-- the result of `solve_lp` has the least cost, without link from a node to itself and with at most one storage per node -/
theorem solved_least (hs : Ready s) (hself : NoSelfLink s) (h1 : OneStorage s) (hr : solveLp solver b s = .ok r)
    (hk : k < s.nbScn) (ha : Answers solver s k Cmd.Optimal) : Least s k (dispatchOf s r k) := by
  refine ⟨solved_feasible hs hself h1 hr hk (answers_feasible_of_optimal ha), fun D' hD' => ?_⟩
  obtain rfl := Ready.result hs hr
  exact (optimal_result (Built.inv hs.built) hk _ b (Ready.answer hs hk ha)).2 D' (code_of_feasible hself hD')

/-- C140, when the energy of each node is given another value, without link from a node to itself and with at most one storage per
node: what can be done is the same, everything costs the same amount more, the former result is still one of least cost, as the new one
was, and the least cost grows by the value of what is asked less that of what storages hold at first. Missing: the other studies, see
`C140_refuted` and `C140_storage_refuted`. -/
theorem C140_partial (hs : Ready s) (hs' : Ready s') (hself : NoSelfLink s) (h1 : OneStorage s) (hk : k < s.nbScn) (hk' : k' < s'.nbScn)
    (hv : KeepsValue s k v) (hc : Taxed 1 (raised s k v) s k s' k') (hr : solveLp solver b s = .ok r)
    (hr' : solveLp solver' b' s' = .ok r') (ha : Answers solver s k Cmd.Optimal) (ha' : Answers solver' s' k' Cmd.Optimal) :
    cost s' k' (dispatchOf s' r' k') = cost s k (dispatchOf s r k) + gainedValue s k v ∧
    (∀ D, Spec.Feasible s k D ↔ Spec.Feasible s' k' D) ∧
    (∀ D, Spec.Feasible s k D → cost s' k' D = cost s k D + gainedValue s k v) ∧
    Least s' k' (dispatchOf s r k) ∧ Least s k (dispatchOf s' r' k') := by
  have hi := Built.inv hs.built
  have hcmp := Taxed.compared hc
  have hcmp' : Compared (fun _ _ => True) Eq Eq s' k' s k :=
    Compared.imp (fun _ _ h => h) (fun _ _ h => h.symm) (fun _ _ h => h.symm) (Compared.flip hcmp)
  have hself' : NoSelfLink s' := Compared.noSelf hcmp hself
  have h1' : OneStorage s' := Compared.oneStorage hcmp h1
  have hf : ∀ D, Spec.Feasible s k D ↔ Spec.Feasible s' k' D := fun D =>
    ⟨fun h => feasible_of_code hself' h1' (Compared.sameFeasible hcmp (code_of_feasible hself h)),
      fun h => feasible_of_code hself h1 (Compared.sameFeasible hcmp' (code_of_feasible hself' h))⟩
  have hcost : ∀ D, Spec.Feasible s k D → cost s' k' D = cost s k D + gainedValue s k v := fun D hD => by
    rw [Taxed.cost hc, one_mul, weighed_raised hi (Ready.dest hs) hv hD]
  have hl := solved_least hs hself h1 hr hk ha
  have hl' := solved_least hs' hself' h1' hr' hk' ha'
  have e1 := hcost _ hl.1
  have e2 := hcost _ ((hf _).mpr hl'.1)
  have i1 := hl.2 _ ((hf _).mpr hl'.1)
  have i2 := hl'.2 _ ((hf _).mp hl.1)
  refine ⟨by linarith, hf, hcost, ⟨(hf _).mp hl.1, fun D' hD' => ?_⟩, ⟨(hf _).mpr hl'.1, fun D' hD' => ?_⟩⟩
  · have := hl'.2 _ hD'
    linarith
  · have := hl.2 _ hD'
    linarith

/-- C140, the same amount on all nodes, without storage or converter and without link from a node to itself: when at each time step all
productions and all that is not served cost the same more, links costing the same, the least cost grows by this amount for each unit
asked, and results of least cost are the same. Missing: studies with storages or converters, for which `C140_partial` says what else is to
be changed, and with a link from a node to itself (`C140_refuted`). -/
theorem C140_goods_partial (hs : Ready s) (hs' : Ready s') (hself : NoSelfLink s) (hst : ∀ g d n, HasNode s g d n → n.storages = [])
    (hcv : s.converters = []) (hk : k < s.nbScn) (hk' : k' < s'.nbScn) (hc : Taxed 1 (onGoods x) s k s' k')
    (hr : solveLp solver b s = .ok r) (hr' : solveLp solver' b' s' = .ok r') (ha : Answers solver s k Cmd.Optimal)
    (ha' : Answers solver' s' k' Cmd.Optimal) :
    cost s' k' (dispatchOf s' r' k') = cost s k (dispatchOf s r k) + overTime s (fun t => x t * askedAll s k t) ∧
    Least s' k' (dispatchOf s r k) ∧ Least s k (dispatchOf s' r' k') := by
  have hi := Built.inv hs.built
  have hc' : Taxed 1 (raised s k fun _ _ t => x t) s k s' k' := Taxed.goods hst hcv hc
  have hv : KeepsValue s k fun _ _ t => x t := {
    storages := fun g d n hn c hm => by rw [hst g d n hn] at hm; cases hm
    converters := fun p hp => by rw [hcv] at hp; cases hp }
  have h := C140_partial hs hs' hself (fun g d n hn => by rw [hst g d n hn]; exact Nat.zero_le _) hk hk' hv hc' hr hr' ha ha'
  rw [gainedValue_goods hst] at h
  exact ⟨h.1, h.2.2.2⟩

/-! ### What fails -/

def dearSelfCalls : List Call :=
  [.studyNetwork "n", .netNode 0 "a", .nodeConsumption 0 "load" (.num 105) (.num 10),
   .nodeLink 0 "a" "a" (.num 0) (.num 10)]

/-- `selfStudy`, where load not served costs 5 more -/
def dearSelf : Study := ((World.start 1 1).run dearSelfCalls).study

theorem dearSelf_ready : Ready dearSelf where
  built := ⟨1, 1, dearSelfCalls, rawCalls_of (by decide +kernel), rfl⟩
  complete := by unfold CompleteConverters; decide +kernel
  ratios := RatiosNonzero.usable (by unfold RatiosNonzero; decide +kernel)
  clean := cleanSources_of (by decide +kernel)

theorem dearSelf_optimal : Answers (fun _ => selfAnswer) dearSelf 0 Cmd.Optimal := by
  intro steps log h
  obtain rfl := logOf_eq h
  refine ⟨Cmd.feasible_of_check (by decide +kernel), ?_⟩
  intro y hy
  have h1 := hy.1.1 (.lol 0 "n" "a" 0) 0 10 (by decide +kernel)
  have e : Cmd.objCoefs (logOf dearSelf 0) = [(.lol 0 "n" "a" 0, 105), (.link 0 "n" "a" 0, 0)] := by
    decide +kernel
  unfold Cmd.objective
  rw [e]
  simp [Cmd.value, selfAnswer]
  linarith [h1.1]

theorem dearSelf_raised : Taxed 1 (raised selfStudy 0 fun _ _ _ => 5) selfStudy 0 dearSelf 0 := by decide +kernel

theorem dearSelf_goods : Taxed 1 (onGoods fun _ => 5) selfStudy 0 dearSelf 0 := by decide +kernel

theorem no_storage {s : Study} (h : ∀ p ∈ s.networks, ∀ q ∈ p.2.nodes, q.2.storages = []) :
    ∀ g d n, HasNode s g d n → n.storages = [] := by
  rintro g d n ⟨net, hg, hd⟩
  exact h _ hg _ hd

theorem keeps_of {s : Study} {k : ℕ} {v : Values}
    (h : ∀ p ∈ s.networks, ∀ q ∈ p.2.nodes, ∀ c ∈ q.2.storages, ∀ t < s.horizon, v p.1 q.1 t = 0 ∨ val c.eff k t = 1)
    (h' : ∀ p ∈ s.converters, ∀ q ∈ p.2.srcRatios, ∀ t < s.horizon,
      v (srcPair q.1).1 (srcPair q.1).2 t = 0 ∨ val q.2 k t ≠ 0) : KeepsValue s k v := by
  refine ⟨?_, h'⟩
  rintro g d n ⟨net, hg, hd⟩
  exact h _ hg _ hd

/-- C140 refuted: with a link from a node to itself, all that is asked is served for nothing, and the least cost stays 0 when energy is
worth 5 more although 10 are asked -/
theorem C140_refuted : ∃ s s' solver b r r', Ready s ∧ Ready s' ∧ OneStorage s ∧ 0 < s.nbScn ∧ 0 < s'.nbScn ∧
    KeepsValue s 0 (fun _ _ _ => 5) ∧ Taxed 1 (raised s 0 fun _ _ _ => 5) s 0 s' 0 ∧ solveLp solver b s = .ok r ∧
    solveLp solver b s' = .ok r' ∧ Answers solver s 0 Cmd.Optimal ∧ Answers solver s' 0 Cmd.Optimal ∧
    gainedValue s 0 (fun _ _ _ => 5) = 50 ∧ cost s 0 (dispatchOf s r 0) = 0 ∧ cost s' 0 (dispatchOf s' r' 0) = 0 :=
  ⟨selfStudy, dearSelf, fun _ => selfAnswer, ⟨[], [], 0, 0⟩, _, _, selfStudy_ready, dearSelf_ready, oneStorage_of (by decide +kernel),
    by decide +kernel, by decide +kernel, keeps_of (by decide +kernel) (by decide +kernel), dearSelf_raised,
    Ready.solve selfStudy_ready _ _, Ready.solve dearSelf_ready _ _, selfAnswer_optimal, dearSelf_optimal, by decide +kernel,
    by decide +kernel, by decide +kernel⟩

def mateCalls (load keep : ℚ) : List Call :=
  [.studyNetwork "n", .netNode 0 "a", .nodeConsumption 0 "load" (.num load) (.num 10),
   .nodeStorage 0 ⟨"s1", .num 0, .num 0, .num 0, .num keep, 0, .num 1⟩,
   .nodeStorage 0 ⟨"s2", .num 10, .num 0, .num 10, .num keep, 0, .num 1⟩]

/-- a load of 10, no production, two empty storages -/
def mateStudy : Study := ((World.start 1 1).run (mateCalls 100 0)).study

/-- the same, energy being worth 5 more -/
def dearMate : Study := ((World.start 1 1).run (mateCalls 105 (-5))).study

theorem mate_ready : Ready mateStudy where
  built := ⟨1, 1, mateCalls 100 0, rawCalls_of (by decide +kernel), rfl⟩
  complete := by unfold CompleteConverters; decide +kernel
  ratios := RatiosNonzero.usable (by unfold RatiosNonzero; decide +kernel)
  clean := cleanSources_of (by decide +kernel)

theorem dearMate_ready : Ready dearMate where
  built := ⟨1, 1, mateCalls 105 (-5), rawCalls_of (by decide +kernel), rfl⟩
  complete := by unfold CompleteConverters; decide +kernel
  ratios := RatiosNonzero.usable (by unfold RatiosNonzero; decide +kernel)
  clean := cleanSources_of (by decide +kernel)

/-- everything is served by the second storage, which is full in the end -/
def mateAnswer : Var → ℚ
  | .fout _ _ _ 1 => 10
  | .cap _ _ _ 1 => 10
  | _ => 0

theorem mate_optimal : Answers (fun _ => mateAnswer) mateStudy 0 Cmd.Optimal := by
  intro steps log h
  obtain rfl := logOf_eq h
  refine ⟨Cmd.feasible_of_check (by decide +kernel), ?_⟩
  intro y hy
  have h1 := hy.1.1 (.lol 0 "n" "a" 0) 0 10 (by decide +kernel)
  have e : Cmd.objCoefs (logOf mateStudy 0) = [(.lol 0 "n" "a" 0, 100), (.cap 0 "n" "a" 0, 0),
      (.cap 0 "n" "a" 1, 0)] := by
    decide +kernel
  unfold Cmd.objective
  rw [e]
  simp [Cmd.value, mateAnswer]
  linarith [h1.1]

theorem dearMate_optimal : Answers (fun _ => mateAnswer) dearMate 0 Cmd.Optimal := by
  intro steps log h
  obtain rfl := logOf_eq h
  refine ⟨Cmd.feasible_of_check (by decide +kernel), ?_⟩
  intro y hy
  have h1 := hy.1.1 (.lol 0 "n" "a" 0) 0 10 (by decide +kernel)
  have h2 := hy.1.1 (.cap 0 "n" "a" 0) 0 0 (by decide +kernel)
  have h3 := hy.1.1 (.cap 0 "n" "a" 1) 0 10 (by decide +kernel)
  have e : Cmd.objCoefs (logOf dearMate 0) = [(.lol 0 "n" "a" 0, 105), (.cap 0 "n" "a" 0, -5),
      (.cap 0 "n" "a" 1, -5)] := by
    decide +kernel
  unfold Cmd.objective
  rw [e]
  simp [Cmd.value, mateAnswer]
  linarith [h1.1, h2.2, h3.2]

/-- C140 refuted: with two storages at a node, the least cost goes from 0 to -50 when energy is worth 5 more although 10 are asked -/
theorem C140_storage_refuted : ∃ s s' solver b r r', Ready s ∧ Ready s' ∧ NoSelfLink s ∧ 0 < s.nbScn ∧ 0 < s'.nbScn ∧
    KeepsValue s 0 (fun _ _ _ => 5) ∧ Taxed 1 (raised s 0 fun _ _ _ => 5) s 0 s' 0 ∧ solveLp solver b s = .ok r ∧
    solveLp solver b s' = .ok r' ∧ Answers solver s 0 Cmd.Optimal ∧ Answers solver s' 0 Cmd.Optimal ∧
    gainedValue s 0 (fun _ _ _ => 5) = 50 ∧ cost s 0 (dispatchOf s r 0) = 0 ∧ cost s' 0 (dispatchOf s' r' 0) = -50 :=
  ⟨mateStudy, dearMate, fun _ => mateAnswer, ⟨[], [], 0, 0⟩, _, _, mate_ready, dearMate_ready, noSelf_of (by decide +kernel),
    by decide +kernel, by decide +kernel, keeps_of (by decide +kernel) (by decide +kernel), by decide +kernel,
    Ready.solve mate_ready _ _, Ready.solve dearMate_ready _ _, mate_optimal, dearMate_optimal, by decide +kernel,
    by decide +kernel, by decide +kernel⟩

/-! ### Concrete cases -/

/-- two linked nodes, a storage without losses, a converter, two time steps; energy is then worth 5 and 7 more at `a`, 3 more at `b` and
4 more at `g` -/
def baseCalls : List Call :=
  [.studyNetwork "elec", .netNode 0 "a", .nodeConsumption 0 "load" (.num 100) (.num 10),
   .nodeProduction 0 "nuke" (.num 20) (.num 15),
   .nodeStorage 0 ⟨"cell", .num 8, .num 2, .num 2, .num 1, 3, .num 1⟩,
   .netNode 0 "b", .nodeConsumption 0 "load" (.num 100) (.num 6),
   .netLink 0 "a" "b" (.num 1) (.num 4),
   .studyNetwork "gas", .netNode 1 "g", .nodeProduction 1 "well" (.num 12) (.num 10),
   .nodeToConverter 1 "conv" (.num (1/2)),
   .nodeConverter 1 "conv" "elec" "b" (.num 3) (.num 2)]

def raisedCalls : List Call :=
  [.studyNetwork "elec", .netNode 0 "a", .nodeConsumption 0 "load" (.array ⟨[2], [105, 107], rfl⟩) (.num 10),
   .nodeProduction 0 "nuke" (.array ⟨[2], [25, 27], rfl⟩) (.num 15),
   .nodeStorage 0 ⟨"cell", .num 8, .num 2, .num 2, .array ⟨[2], [3, -6], rfl⟩, 3, .num 1⟩,
   .netNode 0 "b", .nodeConsumption 0 "load" (.num 103) (.num 6),
   .netLink 0 "a" "b" (.array ⟨[2], [-1, -3], rfl⟩) (.num 4),
   .studyNetwork "gas", .netNode 1 "g", .nodeProduction 1 "well" (.num 16) (.num 10),
   .nodeToConverter 1 "conv" (.num (1/2)),
   .nodeConverter 1 "conv" "elec" "b" (.num 3) (.num (-3))]

def baseStudy : Study := ((World.start 2 1).run baseCalls).study

def raisedStudy : Study := ((World.start 2 1).run raisedCalls).study

def someValues : Values := fun g d t => if g = "gas" then 4 else if d = "b" then 3 else if t = 0 then 5 else 7

theorem base_ready : Ready baseStudy where
  built := ⟨2, 1, baseCalls, rawCalls_of (by decide +kernel), rfl⟩
  complete := by unfold CompleteConverters; decide +kernel
  ratios := RatiosNonzero.usable (by unfold RatiosNonzero; decide +kernel)
  clean := cleanSources_of (by decide +kernel)

theorem raised_ready : Ready raisedStudy where
  built := ⟨2, 1, raisedCalls, rawCalls_of (by decide +kernel), rfl⟩
  complete := by unfold CompleteConverters; decide +kernel
  ratios := RatiosNonzero.usable (by unfold RatiosNonzero; decide +kernel)
  clean := cleanSources_of (by decide +kernel)

theorem base_raised : Taxed 1 (raised baseStudy 0 someValues) baseStudy 0 raisedStudy 0 := by decide +kernel

example : ¬ Taxed 1 (raised baseStudy 0 fun _ _ _ => 5) baseStudy 0 raisedStudy 0 := by decide +kernel

theorem base_keeps : KeepsValue baseStudy 0 someValues := keeps_of (by decide +kernel) (by decide +kernel)

/-- whatever the optimal solvers, the least cost grows by 141: 120 for what is asked at `a`, 36 at `b`, less 15 for what is stored -/
example (solver solver' : Solver) (r r' : Result) (hr : solveLp solver ⟨[], [], 0, 0⟩ baseStudy = .ok r)
    (hr' : solveLp solver' ⟨[], [], 0, 0⟩ raisedStudy = .ok r') (ha : Answers solver baseStudy 0 Cmd.Optimal)
    (ha' : Answers solver' raisedStudy 0 Cmd.Optimal) :
    cost raisedStudy 0 (dispatchOf raisedStudy r' 0) = cost baseStudy 0 (dispatchOf baseStudy r 0) + 141 := by
  have h := (C140_partial base_ready raised_ready (noSelf_of (by decide +kernel)) (oneStorage_of (by decide +kernel)) (by decide +kernel)
    (by decide +kernel) base_keeps base_raised hr hr' ha ha').1
  have e : gainedValue baseStudy 0 someValues = 141 := by decide +kernel
  rwa [e] at h

theorem limitsOk_of' {s : Study} {k : ℕ} (h : ∀ p ∈ s.networks, ∀ q ∈ p.2.nodes,
      (∀ c ∈ q.2.consumptions, ∀ t < s.horizon, 0 ≤ val c.quantity k t) ∧
      (∀ c ∈ q.2.productions, ∀ t < s.horizon, 0 ≤ val c.quantity k t) ∧
      (∀ c ∈ q.2.links, ∀ t < s.horizon, 0 ≤ val c.quantity k t) ∧
      (∀ c ∈ q.2.storages, ∀ t < s.horizon, 0 ≤ c.initCapacity ∧
        c.initCapacity ≤ val c.capacity k t ∧ 0 ≤ val c.flowIn k t ∧ 0 ≤ val c.flowOut k t))
    (h' : ∀ p ∈ s.converters, ∀ t < s.horizon, 0 ≤ fval p.2.max k t ∧ ∀ q ∈ p.2.srcRatios, 0 ≤ val q.2 k t) : LimitsOk s k := by
  refine ⟨?_, ?_, ?_, ?_, h'⟩
  · rintro g d n ⟨net, hg, hd⟩; exact (h _ hg _ hd).1
  · rintro g d n ⟨net, hg, hd⟩; exact (h _ hg _ hd).2.1
  · rintro g d n ⟨net, hg, hd⟩; exact (h _ hg _ hd).2.2.1
  · rintro g d n ⟨net, hg, hd⟩; exact (h _ hg _ hd).2.2.2

/-- such solvers exist -/
example : ∃ solver, Answers solver baseStudy 0 Cmd.Optimal ∧ Answers solver raisedStudy 0 Cmd.Optimal := by
  obtain ⟨solver, h⟩ := C71_solver
  exact ⟨solver, h _ base_ready 0 (by decide +kernel) (limitsOk_of' (by decide +kernel) (by decide +kernel)),
    h _ raised_ready 0 (by decide +kernel) (limitsOk_of' (by decide +kernel) (by decide +kernel))⟩

def goodsCalls (x : ℚ) : List Call :=
  [.studyNetwork "n", .netNode 0 "a", .nodeConsumption 0 "load" (.num (100 + x)) (.num 10),
   .nodeProduction 0 "nuke" (.num (20 + x)) (.num 15), .netNode 0 "b", .nodeConsumption 0 "load" (.num (50 + x)) (.num 6),
   .netLink 0 "a" "b" (.num 1) (.num 4)]

def goodsStudy : Study := ((World.start 1 1).run (goodsCalls 0)).study

def dearGoods : Study := ((World.start 1 1).run (goodsCalls 5)).study

theorem goods_ready : Ready goodsStudy where
  built := ⟨1, 1, goodsCalls 0, rawCalls_of (by decide +kernel), rfl⟩
  complete := by unfold CompleteConverters; decide +kernel
  ratios := RatiosNonzero.usable (by unfold RatiosNonzero; decide +kernel)
  clean := cleanSources_of (by decide +kernel)

theorem dearGoods_ready : Ready dearGoods where
  built := ⟨1, 1, goodsCalls 5, rawCalls_of (by decide +kernel), rfl⟩
  complete := by unfold CompleteConverters; decide +kernel
  ratios := RatiosNonzero.usable (by unfold RatiosNonzero; decide +kernel)
  clean := cleanSources_of (by decide +kernel)

/-- whatever the optimal solvers, the least cost grows by 5 for each of the 16 units asked -/
example (solver solver' : Solver) (r r' : Result) (hr : solveLp solver ⟨[], [], 0, 0⟩ goodsStudy = .ok r)
    (hr' : solveLp solver' ⟨[], [], 0, 0⟩ dearGoods = .ok r') (ha : Answers solver goodsStudy 0 Cmd.Optimal)
    (ha' : Answers solver' dearGoods 0 Cmd.Optimal) :
    cost dearGoods 0 (dispatchOf dearGoods r' 0) = cost goodsStudy 0 (dispatchOf goodsStudy r 0) + 80 := by
  have h := (C140_goods_partial (x := fun _ => 5) goods_ready dearGoods_ready (noSelf_of (by decide +kernel))
    (no_storage (by decide +kernel)) (by decide +kernel) (by decide +kernel) (by decide +kernel) (by decide +kernel) hr hr' ha ha').1
  have e : overTime goodsStudy (fun t => 5 * askedAll goodsStudy 0 t) = 80 := by decide +kernel
  rwa [e] at h

end Hadar.Props
