import Verif.Proofs.LPCheck
import Verif.Props.LP

/-!
# C18 - C27: refutations and concrete cases
-/

namespace Hadar.Props

open Hadar Spec

/-! ### A link from a node to itself makes energy -/

def selfCalls : List Call :=
  [.studyNetwork "n", .netNode 0 "a", .nodeConsumption 0 "load" (.num 100) (.num 10),
   .nodeLink 0 "a" "a" (.num 0) (.num 10)]

/-- a load of 10 at node `a`, no production, a link from `a` to `a` -/
def selfStudy : Study := ((World.start 1 1).run selfCalls).study

/-- everything is served through the link -/
def selfAnswer : Var → ℚ
  | .link .. => 10
  | _ => 0

theorem selfStudy_ready : Ready selfStudy where
  built := ⟨1, 1, selfCalls, by
    intro c hc
    simp only [selfCalls, List.mem_cons, List.not_mem_nil, or_false] at hc
    rcases hc with rfl | rfl | rfl | rfl <;> simp [RawCall], rfl⟩
  complete := by unfold CompleteConverters; decide +kernel
  ratios := RatiosNonzero.usable (by unfold RatiosNonzero; decide +kernel)
  clean := cleanSources_of (by decide +kernel)

theorem selfAnswer_optimal : Answers (fun _ => selfAnswer) selfStudy 0 Cmd.Optimal := by
  intro steps log h
  obtain rfl := logOf_eq h
  refine ⟨Cmd.feasible_of_check (by decide +kernel), ?_⟩
  intro y hy
  have h1 := hy.1.1 (.lol 0 "n" "a" 0) 0 10 (by decide +kernel)
  have e : Cmd.objCoefs (logOf selfStudy 0) = [(.lol 0 "n" "a" 0, 100), (.link 0 "n" "a" 0, 0)] := by
    decide +kernel
  unfold Cmd.objective
  rw [e]
  simp [Cmd.value, selfAnswer]
  linarith [h1.1]

/-- C19 refuted: with an optimal answer of the solver, the load of 10 is served although nothing is
produced -/
theorem C19_refuted : ∃ s solver b r, Ready s ∧ 0 < s.nbScn ∧ Answers solver s 0 Cmd.Optimal ∧
    solveLp solver b s = .ok r ∧ ¬ Balanced s 0 (dispatchOf s r 0) := by
  refine ⟨selfStudy, fun _ => selfAnswer, ⟨[], [], 0, 0⟩, _, selfStudy_ready, by decide +kernel,
    selfAnswer_optimal, Ready.solve selfStudy_ready _ _, ?_⟩
  intro h
  have := h "n" "a" (inNode selfStudy "n" "a") ⟨_, List.mem_cons_self, List.mem_cons_self⟩ 0
    (by decide +kernel)
  revert this
  decide +kernel

theorem selfStudy_cost (D : Dispatch) (hD : Spec.Feasible selfStudy 0 D) : cost selfStudy 0 D = 1000 := by
  have := hD.balanced "n" "a" (inNode selfStudy "n" "a") ⟨_, List.mem_cons_self, List.mem_cons_self⟩ 0
    (by decide +kernel)
  have e : incoming selfStudy D "n" "a" (inNode selfStudy "n" "a") 0 = 0 + 0 + ((D.link "n" "a" 0 0 +
      0 + 0) + 0) + 0 := rfl
  have e' : outgoing selfStudy 0 D "n" "a" (inNode selfStudy "n" "a") 0 = (10 - D.lol "n" "a" 0 0 + 0) + 0 +
      (D.link "n" "a" 0 0 + 0) + 0 := rfl
  have e'' : cost selfStudy 0 D = (((100 * D.lol "n" "a" 0 0 + 0) + 0 + 0 +
      (0 * D.link "n" "a" 0 0 + 0) + 0) + 0 + 0) + 0 := rfl
  rw [e, e'] at this
  rw [e'']
  linarith

/-- C22 refuted: the result is not feasible for the documented problem, of which every feasible
dispatch costs 1000 -/
theorem C22_refuted : ∃ s solver b r, Ready s ∧ 0 < s.nbScn ∧ Answers solver s 0 Cmd.Optimal ∧
    solveLp solver b s = .ok r ∧ ¬ Spec.Feasible s 0 (dispatchOf s r 0) ∧
    cost s 0 (dispatchOf s r 0) = 0 ∧ ∀ D, Spec.Feasible s 0 D → cost s 0 D = 1000 := by
  refine ⟨selfStudy, fun _ => selfAnswer, ⟨[], [], 0, 0⟩, _, selfStudy_ready, by decide +kernel,
    selfAnswer_optimal, Ready.solve selfStudy_ready _ _, ?_, ?_, ?_⟩
  · intro h
    have := h.balanced "n" "a" (inNode selfStudy "n" "a") ⟨_, List.mem_cons_self, List.mem_cons_self⟩ 0
      (by decide +kernel)
    revert this
    decide +kernel
  · decide +kernel
  · exact selfStudy_cost

/-- the hypotheses of `C22_exact` are met: what the code allows though the documented problem does not -/
example : CodeFeasible selfStudy 0 (dispatchOf selfStudy (resultAll selfStudy (valsOf (fun _ => selfAnswer) selfStudy) ⟨[], [], 0, 0⟩) 0) :=
  ((C22_exact selfStudy_ready (Ready.solve selfStudy_ready (fun _ => selfAnswer) ⟨[], [], 0, 0⟩) (by decide +kernel)).2.mp
    selfAnswer_optimal).1

/-! ### Only the first storage of a node is constrained -/

def storCalls : List Call :=
  [.studyNetwork "n", .netNode 0 "a", .nodeConsumption 0 "load" (.num 100) (.num 10),
   .nodeStorage 0 ⟨"s1", .num 10, .num 0, .num 0, .num 0, 0, .num 1⟩,
   .nodeStorage 0 ⟨"s2", .num 10, .num 0, .num 10, .num 0, 0, .num 1⟩]

/-- a load of 10, no production, two empty storages -/
def storStudy : Study := ((World.start 1 1).run storCalls).study

/-- everything is served by the second storage, which stays empty -/
def storAnswer : Var → ℚ
  | .fout _ _ _ 1 => 10
  | _ => 0

theorem storStudy_ready : Ready storStudy where
  built := ⟨1, 1, storCalls, by
    intro c hc
    simp only [storCalls, List.mem_cons, List.not_mem_nil, or_false] at hc
    rcases hc with rfl | rfl | rfl | rfl | rfl <;> simp [RawCall], rfl⟩
  complete := by unfold CompleteConverters; decide +kernel
  ratios := RatiosNonzero.usable (by unfold RatiosNonzero; decide +kernel)
  clean := cleanSources_of (by decide +kernel)

theorem storAnswer_optimal : Answers (fun _ => storAnswer) storStudy 0 Cmd.Optimal := by
  intro steps log h
  obtain rfl := logOf_eq h
  refine ⟨Cmd.feasible_of_check (by decide +kernel), ?_⟩
  intro y hy
  have h1 := hy.1.1 (.lol 0 "n" "a" 0) 0 10 (by decide +kernel)
  have e : Cmd.objCoefs (logOf storStudy 0) = [(.lol 0 "n" "a" 0, 100), (.cap 0 "n" "a" 0, 0),
      (.cap 0 "n" "a" 1, 0)] := by
    decide +kernel
  unfold Cmd.objective
  rw [e]
  simp [Cmd.value, storAnswer]
  linarith [h1.1]

/-- C20 refuted: an empty storage, second of its node, gives 10 and stays at level 0 -/
theorem C20_refuted : ∃ s solver b r, Ready s ∧ 0 < s.nbScn ∧ Answers solver s 0 Cmd.Optimal ∧
    solveLp solver b s = .ok r ∧ NoSelfLink s ∧ ¬ StorageOk s 0 (dispatchOf s r 0) := by
  refine ⟨storStudy, fun _ => storAnswer, ⟨[], [], 0, 0⟩, _, storStudy_ready, by decide +kernel,
    storAnswer_optimal, Ready.solve storStudy_ready _ _, ?_, ?_⟩
  · rintro g d n ⟨net, hg, hd⟩ l hl
    have : ∀ p ∈ storStudy.networks, ∀ q ∈ p.2.nodes, ∀ l ∈ q.2.links, l.dest ≠ q.1 := by
      decide +kernel
    exact this _ hg _ hd l hl
  intro h
  have := h "n" "a" (inNode storStudy "n" "a") ⟨_, List.mem_cons_self, List.mem_cons_self⟩ 1 _
    rfl 0 (by decide +kernel)
  revert this
  unfold Evolves
  decide +kernel

/-! ### An infeasible problem goes unnoticed -/

def badCalls : List Call :=
  [.studyNetwork "n", .netNode 0 "a",
   .nodeStorage 0 ⟨"s", .num 0, .num 0, .num 0, .num 0, 5, .num 1⟩]

/-- a storage that starts at 5 with a capacity of 0 -/
def badStudy : Study := ((World.start 1 1).run badCalls).study

theorem badStudy_ready : Ready badStudy where
  built := ⟨1, 1, badCalls, by
    intro c hc
    simp only [badCalls, List.mem_cons, List.not_mem_nil, or_false] at hc
    rcases hc with rfl | rfl | rfl <;> simp [RawCall], rfl⟩
  complete := by unfold CompleteConverters; decide +kernel
  ratios := RatiosNonzero.usable (by unfold RatiosNonzero; decide +kernel)
  clean := cleanSources_of (by decide +kernel)

/-- C23, why the hypothesis on storages is needed: the builder accepts a storage above its capacity,
then no solution exists, and `solve_lp`, which does not look at the status of the solver, still
returns a result, whatever the solver answers -/
theorem C23_infeasible_unnoticed : Ready badStudy ∧ 0 < badStudy.nbScn ∧
    (∀ x, ¬ Cmd.Feasible (logOf badStudy 0) x) ∧ (∀ D, ¬ Spec.Feasible badStudy 0 D) ∧
    ∀ solver b, ∃ r, solveLp solver b badStudy = .ok r := by
  have hno : ∀ x, ¬ Cmd.Feasible (logOf badStudy 0) x := by
    intro x hx
    have h1 := hx.1.1 (.cap 0 "n" "a" 0) 0 0 (by decide +kernel)
    have h2 := hx.1.1 (.fin 0 "n" "a" 0) 0 0 (by decide +kernel)
    have h3 := hx.1.1 (.fout 0 "n" "a" 0) 0 0 (by decide +kernel)
    have h4 := value_ge hx (r := .stor 0 "n" "a" "s") (lo := 5) (hi := 5)
      (d := [(.fin 0 "n" "a" 0, -1), (.fout 0 "n" "a" 0, 1), (.cap 0 "n" "a" 0, 1)])
      (by decide +kernel) (by decide +kernel)
    simp only [Cmd.value, List.map_cons, List.map_nil, List.sum_cons, List.sum_nil] at h4
    linarith [h1.2, h2.1, h2.2, h3.1, h3.2, h4.1]
  refine ⟨badStudy_ready, by decide +kernel, hno, ?_, ?_⟩
  · intro D hD
    apply hno (toVars D)
    have hk : 0 < badStudy.nbScn := by decide +kernel
    rw [← logOf_eq (Ready.build badStudy_ready hk), feasible_iff (Built.inv badStudy_ready.built),
      ofVars_toVars]
    apply code_of_feasible _ hD
    rintro g d n ⟨net, hg, hd⟩ l hl
    have : ∀ p ∈ badStudy.networks, ∀ q ∈ p.2.nodes, ∀ l ∈ q.2.links, l.dest ≠ q.1 := by
      decide +kernel
    exact this _ hg _ hd l hl
  · intro solver b
    exact ⟨_, Ready.solve badStudy_ready solver b⟩

/-! ### A study with all kinds of elements -/

def lpCalls : List Call :=
  [.studyNetwork "elec", .netNode 0 "a", .nodeConsumption 0 "load" (.num 100) (.num 10),
   .nodeProduction 0 "nuke" (.num 20) (.num 15), .nodeProduction 0 "fuel" (.num 70) (.num 5),
   .netNode 0 "b", .nodeConsumption 0 "load" (.num 100) (.num 6),
   .nodeStorage 0 ⟨"cell", .num 8, .num 2, .num 2, .num 0, 5, .num (9/10)⟩,
   .netLink 0 "a" "b" (.num 1) (.num 4),
   .studyNetwork "gas", .netNode 1 "g", .nodeProduction 1 "well" (.num 1) (.num 10),
   .nodeToConverter 1 "conv" (.num (1/2)),
   .nodeConverter 1 "conv" "elec" "b" (.num 3) (.num 2)]

def lpStudy : Study := ((World.start 1 1).run lpCalls).study

/-- what the solver answers -/
def lpAnswer : Var → ℚ
  | .prod _ "elec" "a" 0 => 11
  | .link _ "elec" "a" 0 => 1
  | .cap .. => 3
  | .fout .. => 2
  | .prod _ "gas" _ _ => 6
  | .convSrc .. => 6
  | .convDest .. => 3
  | _ => 0

theorem lpStudy_ready : Ready lpStudy where
  built := ⟨1, 1, lpCalls, by
    intro c hc
    simp only [lpCalls, List.mem_cons, List.not_mem_nil, or_false] at hc
    rcases hc with rfl | rfl | rfl | rfl | rfl | rfl | rfl | rfl | rfl | rfl | rfl | rfl | rfl | rfl <;>
      simp [RawCall], rfl⟩
  complete := by unfold CompleteConverters; decide +kernel
  ratios := RatiosNonzero.usable (by unfold RatiosNonzero; decide +kernel)
  clean := cleanSources_of (by decide +kernel)

theorem lpStudy_limits : LimitsOk lpStudy 0 := by
  have h : (∀ p ∈ lpStudy.networks, ∀ q ∈ p.2.nodes,
      (∀ c ∈ q.2.consumptions, ∀ t < lpStudy.horizon, 0 ≤ val c.quantity 0 t) ∧
      (∀ c ∈ q.2.productions, ∀ t < lpStudy.horizon, 0 ≤ val c.quantity 0 t) ∧
      (∀ c ∈ q.2.links, ∀ t < lpStudy.horizon, 0 ≤ val c.quantity 0 t) ∧
      (∀ c ∈ q.2.storages, ∀ t < lpStudy.horizon, 0 ≤ c.initCapacity ∧
        c.initCapacity ≤ val c.capacity 0 t ∧ 0 ≤ val c.flowIn 0 t ∧ 0 ≤ val c.flowOut 0 t)) := by
    decide +kernel
  refine ⟨?_, ?_, ?_, ?_, by decide +kernel⟩
  · rintro g d n ⟨net, hg, hd⟩; exact (h _ hg _ hd).1
  · rintro g d n ⟨net, hg, hd⟩; exact (h _ hg _ hd).2.1
  · rintro g d n ⟨net, hg, hd⟩; exact (h _ hg _ hd).2.2.1
  · rintro g d n ⟨net, hg, hd⟩; exact (h _ hg _ hd).2.2.2

theorem lpStudy_noSelf : NoSelfLink lpStudy := by
  rintro g d n ⟨net, hg, hd⟩
  have : ∀ p ∈ lpStudy.networks, ∀ q ∈ p.2.nodes, ∀ l ∈ q.2.links, l.dest ≠ q.1 := by
    decide +kernel
  exact this _ hg _ hd

theorem lpStudy_one : OneStorage lpStudy := by
  rintro g d n ⟨net, hg, hd⟩
  have : ∀ p ∈ lpStudy.networks, ∀ q ∈ p.2.nodes, q.2.storages.length ≤ 1 := by
    decide +kernel
  exact this _ hg _ hd

/-- the answer is optimal -/
theorem lpAnswer_optimal : Answers (fun _ => lpAnswer) lpStudy 0 Cmd.Optimal := by
  intro steps log h
  obtain rfl := logOf_eq h
  refine ⟨Cmd.feasible_of_check (by decide +kernel), ?_⟩
  intro y hy
  have b1 := hy.1.1 (.lol 0 "elec" "a" 0) 0 10 (by decide +kernel)
  have b2 := hy.1.1 (.lol 0 "elec" "b" 0) 0 6 (by decide +kernel)
  have b3 := hy.1.1 (.prod 0 "elec" "a" 1) 0 5 (by decide +kernel)
  have b4 := hy.1.1 (.fin 0 "elec" "b" 0) 0 2 (by decide +kernel)
  have b5 := hy.1.1 (.fout 0 "elec" "b" 0) 0 2 (by decide +kernel)
  have b6 := hy.1.1 (.convDest 0 "conv") 0 3 (by decide +kernel)
  have r1 := value_ge hy (r := .adeq 0 "elec" "a") (lo := 10) (hi := 10)
    (d := [(.lol 0 "elec" "a" 0, 1), (.prod 0 "elec" "a" 0, 1), (.prod 0 "elec" "a" 1, 1),
      (.link 0 "elec" "a" 0, -1)]) (by decide +kernel) (by decide +kernel)
  have r2 := value_ge hy (r := .adeq 0 "elec" "b") (lo := 6) (hi := 6)
    (d := [(.lol 0 "elec" "b" 0, 1), (.fin 0 "elec" "b" 0, -1), (.fout 0 "elec" "b" 0, 1),
      (.convDest 0 "conv", 1), (.link 0 "elec" "a" 0, 1)]) (by decide +kernel) (by decide +kernel)
  have r3 := value_ge hy (r := .adeq 0 "gas" "g") (lo := 0) (hi := 0)
    (d := [(.prod 0 "gas" "g" 0, 1), (.convSrc 0 "conv" ["gas", "g"], -1)])
    (by decide +kernel) (by decide +kernel)
  have r4 := value_ge hy (r := .mix 0 "conv" ["gas", "g"]) (lo := 0) (hi := 0)
    (d := [(.convSrc 0 "conv" ["gas", "g"], 1/2), (.convDest 0 "conv", -1)])
    (by decide +kernel) (by decide +kernel)
  have e : Cmd.objCoefs (logOf lpStudy 0) = [(.lol 0 "elec" "a" 0, 100), (.prod 0 "elec" "a" 0, 20),
      (.prod 0 "elec" "a" 1, 70), (.link 0 "elec" "a" 0, 1), (.lol 0 "elec" "b" 0, 100),
      (.cap 0 "elec" "b" 0, 0), (.prod 0 "gas" "g" 0, 1), (.convDest 0 "conv", 2)] := by
    decide +kernel
  have e' : Cmd.objective (logOf lpStudy 0) lpAnswer = 233 := by decide +kernel
  dsimp only
  rw [e']
  unfold Cmd.objective
  rw [e]
  simp only [Cmd.value, List.map_cons, List.map_nil, List.sum_cons, List.sum_nil] at r1 r2 r3 r4 ⊢
  linarith [b1.1, b2.1, b3.1, b4.1, b5.2, b6.2, r1.1, r1.2, r2.1, r2.2, r3.1, r3.2, r4.1, r4.2]

/-- hypotheses of C18 - C22, C24, C26: they hold of `lpStudy`, so their conclusions do -/
example : ∃ r, solveLp (fun _ => lpAnswer) ⟨[], [], 0, 0⟩ lpStudy = .ok r ∧
    Bounds lpStudy 0 (dispatchOf lpStudy r 0) ∧ Spec.Feasible lpStudy 0 (dispatchOf lpStudy r 0) ∧
    cost lpStudy 0 (dispatchOf lpStudy r 0) = 233 := by
  have hk : 0 < lpStudy.nbScn := by decide +kernel
  have hr := Ready.solve lpStudy_ready (fun _ => lpAnswer) ⟨[], [], 0, 0⟩
  have hf := C22_least_cost_partial lpStudy_ready lpStudy_noSelf lpStudy_one hr hk lpAnswer_optimal
  refine ⟨_, hr, hf.1.bounds, hf.1, ?_⟩
  rw [← C22_objective lpStudy_ready hr hk (Ready.build lpStudy_ready hk)]
  have : fullLog lpStudy 0 = logOf lpStudy 0 := logOf_eq (Ready.build lpStudy_ready hk)
  rw [this]
  decide +kernel

/-- C23 applies -/
example : ∃ steps log, buildAll lpStudy 0 = .ok (steps, log) ∧ ∃ x, Cmd.Feasible log x :=
  C23_feasible lpStudy_ready (by decide +kernel) lpStudy_limits

/-- C24 applies: `nuke` is cheaper than `fuel` and has spare capacity -/
example (r : Result) (hr : solveLp (fun _ => lpAnswer) ⟨[], [], 0, 0⟩ lpStudy = .ok r) :
    cellAt (outNode r "elec" "a").productions 1 (·.quantity) 0 0 = 0 := by
  refine C24_productions (d := "a") lpStudy_ready hr (by decide +kernel) lpAnswer_optimal
    (n := inNode lpStudy "elec" "a") (hasNode_inNode (by decide +kernel)) (i := 0)
    (p := ⟨"nuke", ⟨.scalar 20, 1, 1⟩, ⟨.scalar 15, 1, 1⟩⟩)
    (q := ⟨"fuel", ⟨.scalar 70, 1, 1⟩, ⟨.scalar 5, 1, 1⟩⟩) (by decide +kernel) (by decide +kernel)
    (by decide +kernel) (by decide +kernel) ?_
  obtain rfl := Ready.result lpStudy_ready hr
  decide +kernel

/-- C25 applies: scenario 1 of this study of two scenarios is the scenario of `lpStudy` where the load
of `a` is an array -/
def twoCalls : List Call :=
  [.studyNetwork "elec", .netNode 0 "a",
    .nodeConsumption 0 "load" (.num 100) (.array ⟨[2, 1], [7, 10], rfl⟩)]

def oneCalls : List Call :=
  [.studyNetwork "elec", .netNode 0 "a", .nodeConsumption 0 "load" (.num 100) (.num 10)]

example : SameScenario ((World.start 1 2).run twoCalls).study 1 ((World.start 1 1).run oneCalls).study 0 := by
  have e1 : ((World.start 1 2).run twoCalls).study.networks = [("elec", ⟨[("a",
      ⟨[⟨⟨.scalar 100, 1, 2⟩, ⟨.column ⟨[2, 1], [7, 10], rfl⟩, 1, 2⟩, "load"⟩], [], [], []⟩)]⟩)] := by decide +kernel
  have e2 : ((World.start 1 1).run oneCalls).study.networks = [("elec", ⟨[("a",
      ⟨[⟨⟨.scalar 100, 1, 1⟩, ⟨.scalar 10, 1, 1⟩, "load"⟩], [], [], []⟩)]⟩)] := by decide +kernel
  have e3 : ((World.start 1 2).run twoCalls).study.converters = [] := by decide +kernel
  have e4 : ((World.start 1 1).run oneCalls).study.converters = [] := by decide +kernel
  have hh : ((World.start 1 2).run twoCalls).study.horizon = 1 := by decide +kernel
  refine ⟨by decide +kernel, ?_, ?_⟩
  · rw [e1, e2, hh]
    refine .cons ⟨rfl, .cons ⟨rfl, ⟨.cons ⟨rfl, ?_, ?_⟩ .nil, .nil, .nil, .nil⟩⟩ .nil⟩ .nil
    · unfold SameSeries; decide +kernel
    · unfold SameSeries; decide +kernel
  · rw [e3, e4]; exact .nil

/-- C27 applies: three chunks of two scenarios, in any order -/
example : [2, 0, 1].Perm (List.range (Pool.nbChunks 2 5)) := by decide

/-! ### The theorems applied to concrete cases -/

/-- What comes out for `lpStudy`. -/
def lpResult : Result := resultAll lpStudy (valsOf (fun _ => lpAnswer) lpStudy) ⟨[], [], 0, 0⟩

theorem lpStudy_gives : solveLp (fun _ => lpAnswer) ⟨[], [], 0, 0⟩ lpStudy = .ok lpResult :=
  Ready.solve lpStudy_ready _ _

theorem lpAnswer_feasible : Answers (fun _ => lpAnswer) lpStudy 0 Cmd.Feasible := fun _ _ h => (lpAnswer_optimal _ _ h).1

theorem lpAnswer_bounds : Answers (fun _ => lpAnswer) lpStudy 0 Cmd.InBounds := fun _ _ h => (lpAnswer_feasible _ _ h).1

theorem lpStudy_b : HasNode lpStudy "elec" "b" (inNode lpStudy "elec" "b") := hasNode_inNode (by decide +kernel)

theorem lpStudy_a : HasNode lpStudy "elec" "a" (inNode lpStudy "elec" "a") := hasNode_inNode (by decide +kernel)

example := C18_bounds lpStudy_ready lpStudy_gives (k := 0) (by decide +kernel) lpAnswer_bounds
example := C18_given lpStudy_ready lpStudy_gives (k := 0) (by decide +kernel) lpAnswer_bounds lpStudy_b (i := 0)
  (c := ⟨⟨.scalar 100, 1, 1⟩, ⟨.scalar 6, 1, 1⟩, "load"⟩) (by decide +kernel) (t := 0) (by decide +kernel)
example := C19_balance_partial lpStudy_ready lpStudy_noSelf lpStudy_gives (k := 0) (by decide +kernel) lpAnswer_feasible
example := C19_balance_self_partial selfStudy_ready (Ready.solve selfStudy_ready (fun _ => selfAnswer) ⟨[], [], 0, 0⟩) (k := 0)
  (by decide +kernel) (fun _ _ h => (selfAnswer_optimal _ _ h).1)
  (hasNode_inNode (g := "n") (d := "a") (by decide +kernel)) (t := 0) (by decide +kernel)
example := C20_first_storage_partial storStudy_ready (Ready.solve storStudy_ready (fun _ => storAnswer) ⟨[], [], 0, 0⟩) (k := 0)
  (by decide +kernel) (fun _ _ h => (storAnswer_optimal _ _ h).1) (hasNode_inNode (g := "n") (d := "a") (by decide +kernel))
  (c := ⟨"s1", ⟨.scalar 10, 1, 1⟩, ⟨.scalar 0, 1, 1⟩, ⟨.scalar 0, 1, 1⟩, ⟨.scalar 0, 1, 1⟩, 0, ⟨.scalar 1, 1, 1⟩⟩)
  (by decide +kernel) (t := 0) (by decide +kernel)
example := C20_one_storage_partial lpStudy_ready lpStudy_one lpStudy_gives (k := 0) (by decide +kernel) lpAnswer_feasible
example := C21_ratios lpStudy_ready lpStudy_gives (k := 0) (by decide +kernel) lpAnswer_feasible
example := C22_no_cheaper_partial lpStudy_ready lpStudy_noSelf lpStudy_gives (k := 0) (by decide +kernel) lpAnswer_optimal
  (dispatchOf lpStudy lpResult 0)
  (C22_least_cost_partial lpStudy_ready lpStudy_noSelf lpStudy_one lpStudy_gives (by decide +kernel) lpAnswer_optimal).1
example := C23_documented lpStudy_ready.built lpStudy_limits
/-- the load of `a` is worth more than `nuke` costs, and `nuke` has spare capacity -/
example := C24_consumptions lpStudy_ready lpStudy_gives (k := 0) (by decide +kernel) lpAnswer_optimal lpStudy_a (i := 0) (j := 0)
  (p := ⟨"nuke", ⟨.scalar 20, 1, 1⟩, ⟨.scalar 15, 1, 1⟩⟩) (c := ⟨⟨.scalar 100, 1, 1⟩, ⟨.scalar 10, 1, 1⟩, "load"⟩)
  (by decide +kernel) (by decide +kernel) (t := 0) (by decide +kernel) (by decide +kernel) (by decide +kernel)

theorem two_same : SameScenario ((World.start 1 2).run twoCalls).study 1 ((World.start 1 1).run oneCalls).study 0 := by
  have e1 : ((World.start 1 2).run twoCalls).study.networks = [("elec", ⟨[("a",
      ⟨[⟨⟨.scalar 100, 1, 2⟩, ⟨.column ⟨[2, 1], [7, 10], rfl⟩, 1, 2⟩, "load"⟩], [], [], []⟩)]⟩)] := by decide +kernel
  have e2 : ((World.start 1 1).run oneCalls).study.networks = [("elec", ⟨[("a",
      ⟨[⟨⟨.scalar 100, 1, 1⟩, ⟨.scalar 10, 1, 1⟩, "load"⟩], [], [], []⟩)]⟩)] := by decide +kernel
  have e3 : ((World.start 1 2).run twoCalls).study.converters = [] := by decide +kernel
  have e4 : ((World.start 1 1).run oneCalls).study.converters = [] := by decide +kernel
  have hh : ((World.start 1 2).run twoCalls).study.horizon = 1 := by decide +kernel
  refine ⟨by decide +kernel, ?_, ?_⟩
  · rw [e1, e2, hh]
    refine .cons ⟨rfl, .cons ⟨rfl, ⟨.cons ⟨rfl, ?_, ?_⟩ .nil, .nil, .nil, .nil⟩⟩ .nil⟩ .nil
    · unfold SameSeries; decide +kernel
    · unfold SameSeries; decide +kernel
  · rw [e3, e4]; exact .nil

theorem two_ready : Ready ((World.start 1 2).run twoCalls).study where
  built := ⟨1, 2, twoCalls, by
    intro c hc
    simp only [twoCalls, List.mem_cons, List.not_mem_nil, or_false] at hc
    rcases hc with rfl | rfl | rfl <;> simp [RawCall], rfl⟩
  complete := by unfold CompleteConverters; decide +kernel
  ratios := RatiosNonzero.usable (by unfold RatiosNonzero; decide +kernel)
  clean := cleanSources_of (by decide +kernel)

theorem one_ready : Ready ((World.start 1 1).run oneCalls).study where
  built := ⟨1, 1, oneCalls, by
    intro c hc
    simp only [oneCalls, List.mem_cons, List.not_mem_nil, or_false] at hc
    rcases hc with rfl | rfl | rfl <;> simp [RawCall], rfl⟩
  complete := by unfold CompleteConverters; decide +kernel
  ratios := RatiosNonzero.usable (by unfold RatiosNonzero; decide +kernel)
  clean := cleanSources_of (by decide +kernel)

example (solver : Solver) (b b' : Benchmark) := C25_independent two_ready one_ready (k := 1) (k' := 0) (by decide +kernel)
  (by decide +kernel) two_same (Ready.solve two_ready solver b) (Ready.solve one_ready solver b')
example := C26_cells lpStudy_ready lpStudy_gives (k := 0) (by decide +kernel) (Ready.build lpStudy_ready (by decide +kernel))
example := C16_optimizer lpStudy_ready (by decide +kernel) lpStudy_gives
example (solver : Solver) (b : Benchmark) := C27_schedule solver b ((World.start 1 2).run twoCalls).study (size := 1) (by decide)
  (order := [1, 0]) (by decide +kernel)
example (solver : Solver) (b : Benchmark) := C27_result two_ready solver b (size := 1) (size' := 2) (by decide) (by decide)
  (order := [1, 0]) (order' := [0]) (by decide +kernel) (by decide +kernel)

end Hadar.Props
