import Verif.Proofs.Moments
import Verif.Proofs.Order
import Verif.Props.Window

/-!
# C147: without storages, time steps are solved on their own
-/

namespace Hadar.Props

open Hadar Spec

variable {s s' : Study} {solver solver' : Solver} {b b' : Benchmark} {r r' : Result} {k k' t t' n : ℕ} {σ : ℕ → ℕ}

theorem SameStep.noStorage (h : SameStep s k t s' k' t') (hno : NoStorage s) : NoStorage s' := by
  intro g d n' hn'
  obtain ⟨n, hn, hN⟩ := h.node hn'
  have := hN.storages
  rw [hno g d n hn, List.forall₂_nil_left_iff] at this
  exact this

/-- C147, without storages: time steps with the same data, in the same study or in two studies, in the same scenario or in two
scenarios, cost the same. Missing: studies with storages, see `C147_refuted`. -/
theorem C147_partial (hs : Ready s) (hs' : Ready s') (hk : k < s.nbScn) (hk' : k' < s'.nbScn)
    (hr : solveLp solver b s = .ok r) (hr' : solveLp solver' b' s' = .ok r')
    (ha : Answers solver s k Cmd.Optimal) (ha' : Answers solver' s' k' Cmd.Optimal) (hno : NoStorage s)
    (h : SameStep s k t s' k' t') (ht : t < s.horizon) (ht' : t' < s'.horizon) :
    stepCost s k (dispatchOf s r k) t = stepCost s' k' (dispatchOf s' r' k') t' := by
  obtain rfl := Ready.result hs hr
  obtain rfl := Ready.result hs' hr'
  have ho := optimal_result (Built.inv hs.built) hk _ b (Ready.answer hs hk ha)
  have ho' := optimal_result (Built.inv hs'.built) hk' _ b' (Ready.answer hs' hk' ha')
  exact le_antisymm (step_le hno h ht ht' ho.1 ho.2 ho'.1) (step_le (SameStep.noStorage h hno) h.symm ht' ht ho'.1 ho'.2 ho.1)

/-- C147, without storages: a study made of time steps of another one, in any order, some of them repeated or left out, costs what
these steps cost there -/
theorem C147_chosen_partial (hs : Ready s) (hs' : Ready s') (hk : k < s.nbScn) (hk' : k' < s'.nbScn)
    (hr : solveLp solver b s = .ok r) (hr' : solveLp solver' b' s' = .ok r')
    (ha : Answers solver s k Cmd.Optimal) (ha' : Answers solver' s' k' Cmd.Optimal) (hno : NoStorage s)
    (h : ∀ t < s'.horizon, σ t < s.horizon ∧ SameStep s k (σ t) s' k' t) :
    cost s' k' (dispatchOf s' r' k') = sumL (List.range s'.horizon) fun t => stepCost s k (dispatchOf s r k) (σ t) := by
  rw [cost_steps]
  apply sumL_congr
  intro t ht
  have ht : t < s'.horizon := by simpa using ht
  exact (C147_partial hs hs' hk hk' hr hr' ha ha' hno (h t ht).2 (h t ht).1 ht).symm

/-- C147, without storages: the order of time steps does not matter -/
theorem C147_order_partial (hs : Ready s) (hs' : Ready s') (hk : k < s.nbScn) (hk' : k' < s'.nbScn)
    (hr : solveLp solver b s = .ok r) (hr' : solveLp solver' b' s' = .ok r')
    (ha : Answers solver s k Cmd.Optimal) (ha' : Answers solver' s' k' Cmd.Optimal) (hno : NoStorage s)
    (hh : s'.horizon = s.horizon) (hσ : Set.InjOn σ {t | t < s.horizon})
    (h : ∀ t < s'.horizon, σ t < s.horizon ∧ SameStep s k (σ t) s' k' t) :
    cost s' k' (dispatchOf s' r' k') = cost s k (dispatchOf s r k) := by
  rw [C147_chosen_partial hs hs' hk hk' hr hr' ha ha' hno h, cost_steps, hh]
  have hp : ((List.range s.horizon).map σ).Perm (List.range s.horizon) := by
    have hn : ((List.range s.horizon).map σ).Nodup :=
      (List.nodup_map_iff_inj_on List.nodup_range).mpr fun x hx y hy e =>
        hσ (List.mem_range.mp hx) (List.mem_range.mp hy) e
    refine (List.subperm_of_subset hn ?_).perm_of_length_le (by simp)
    intro x hx
    obtain ⟨t, ht, rfl⟩ := List.mem_map.mp hx
    exact List.mem_range.mpr (h t (by rw [hh]; exact List.mem_range.mp ht)).1
  rw [← sumL_permuted hp (fun t => stepCost s k (dispatchOf s r k) t)]
  unfold sumL
  rw [List.map_map]
  rfl

/-- C147, without storages: a study whose time steps come back `n` times costs `n` times as much -/
theorem C147_repeated_partial (hs : Ready s) (hs' : Ready s') (hk : k < s.nbScn) (hk' : k' < s'.nbScn)
    (hr : solveLp solver b s = .ok r) (hr' : solveLp solver' b' s' = .ok r')
    (ha : Answers solver s k Cmd.Optimal) (ha' : Answers solver' s' k' Cmd.Optimal) (hno : NoStorage s)
    (hpos : 0 < s.horizon) (hh : s'.horizon = n * s.horizon)
    (h : ∀ t < s'.horizon, SameStep s k (t % s.horizon) s' k' t) :
    cost s' k' (dispatchOf s' r' k') = n * cost s k (dispatchOf s r k) := by
  rw [C147_chosen_partial (σ := fun t => t % s.horizon) hs hs' hk hk' hr hr' ha ha' hno
    fun t ht => ⟨Nat.mod_lt _ hpos, h t ht⟩, cost_steps, hh]
  exact sumL_repeated (stepCost s k (dispatchOf s r k)) hpos n

/-! ### Concrete cases -/

/-- a load over time, a production there and one at another node -/
def hoursCalls (load : Raw) : List Call :=
  [.studyNetwork "elec", .netNode 0 "a", .nodeConsumption 0 "load" (.num 100) load,
   .nodeProduction 0 "nuke" (.num 20) (.num 5), .netNode 0 "b", .nodeProduction 0 "fuel" (.num 70) (.num 2),
   .netLink 0 "b" "a" (.num 1) (.num 1)]

def hoursStudy : Study := ((World.start 2 1).run (hoursCalls (.array ⟨[2], [3, 8], rfl⟩))).study
/-- the other way round -/
def turnedStudy : Study := ((World.start 2 1).run (hoursCalls (.array ⟨[2], [8, 3], rfl⟩))).study
/-- twice -/
def againStudy : Study := ((World.start 4 1).run (hoursCalls (.array ⟨[4], [3, 8, 3, 8], rfl⟩))).study

theorem hoursStudy_ready : Ready hoursStudy where
  built := ⟨2, 1, _, rawCalls_of (by decide +kernel), rfl⟩
  complete := by unfold CompleteConverters; decide +kernel
  ratios := RatiosNonzero.usable (by unfold RatiosNonzero; decide +kernel)
  clean := cleanSources_of (by decide +kernel)

theorem turnedStudy_ready : Ready turnedStudy where
  built := ⟨2, 1, _, rawCalls_of (by decide +kernel), rfl⟩
  complete := by unfold CompleteConverters; decide +kernel
  ratios := RatiosNonzero.usable (by unfold RatiosNonzero; decide +kernel)
  clean := cleanSources_of (by decide +kernel)

theorem againStudy_ready : Ready againStudy where
  built := ⟨4, 1, _, rawCalls_of (by decide +kernel), rfl⟩
  complete := by unfold CompleteConverters; decide +kernel
  ratios := RatiosNonzero.usable (by unfold RatiosNonzero; decide +kernel)
  clean := cleanSources_of (by decide +kernel)

instance (k t k' t' : ℕ) (n n' : InputNode) : Decidable (NodeAtStep k t k' t' n n') :=
  decidable_of_iff (_ ∧ _ ∧ _ ∧ _) ⟨fun x => ⟨x.1, x.2.1, x.2.2.1, x.2.2.2⟩, fun x => ⟨x.1, x.2, x.3, x.4⟩⟩

theorem noStorage_of {s : Study} (h : ∀ p ∈ s.networks, ∀ q ∈ p.2.nodes, q.2.storages = []) : NoStorage s := by
  rintro g d n ⟨net, hg, hd⟩
  exact h _ hg _ hd

/-- the hypotheses are met: the load of the second hour first -/
example (solver solver' : Solver) (b : Benchmark) (r r' : Result) (hr : solveLp solver b hoursStudy = .ok r)
    (hr' : solveLp solver' b turnedStudy = .ok r') (ha : Answers solver hoursStudy 0 Cmd.Optimal)
    (ha' : Answers solver' turnedStudy 0 Cmd.Optimal) :
    cost turnedStudy 0 (dispatchOf turnedStudy r' 0) = cost hoursStudy 0 (dispatchOf hoursStudy r 0) := by
  refine C147_order_partial (σ := fun t => 1 - t) hoursStudy_ready turnedStudy_ready (by decide +kernel) (by decide +kernel) hr hr'
    ha ha' (noStorage_of (by decide +kernel)) rfl ?_ ?_
  · intro x hx y hy e
    have hx : x < 2 := hx
    have hy : y < 2 := hy
    dsimp only at e
    omega
  · intro t ht
    have ht : t < 2 := ht
    have : t = 0 ∨ t = 1 := by omega
    rcases this with rfl | rfl
    · exact ⟨by decide +kernel, by decide +kernel, by exact .nil⟩
    · exact ⟨by decide +kernel, by decide +kernel, by exact .nil⟩

/-- and the two hours twice -/
example (solver solver' : Solver) (b : Benchmark) (r r' : Result) (hr : solveLp solver b hoursStudy = .ok r)
    (hr' : solveLp solver' b againStudy = .ok r') (ha : Answers solver hoursStudy 0 Cmd.Optimal)
    (ha' : Answers solver' againStudy 0 Cmd.Optimal) :
    cost againStudy 0 (dispatchOf againStudy r' 0) = (2 : ℕ) * cost hoursStudy 0 (dispatchOf hoursStudy r 0) := by
  refine C147_repeated_partial hoursStudy_ready againStudy_ready (by decide +kernel) (by decide +kernel) hr hr'
    ha ha' (noStorage_of (by decide +kernel)) (by decide +kernel) rfl ?_
  intro t ht
  have ht : t < 4 := ht
  have : t = 0 ∨ t = 1 ∨ t = 2 ∨ t = 3 := by omega
  rcases this with rfl | rfl | rfl | rfl <;> exact ⟨by decide +kernel, by exact .nil⟩

/-! ### With a storage -/

/-- `wholeStudy` with the greater load first -/
def hurriedStudy : Study := ((World.start 2 1).run (stepsCalls (.array ⟨[2], [4, 1], rfl⟩) 0)).study

theorem hurriedStudy_ready : Ready hurriedStudy where
  built := ⟨2, 1, _, rawCalls_of (by decide +kernel), rfl⟩
  complete := by unfold CompleteConverters; decide +kernel
  ratios := RatiosNonzero.usable (by unfold RatiosNonzero; decide +kernel)
  clean := cleanSources_of (by decide +kernel)

def hurriedAnswer : Var → ℚ
  | .prod 0 .. => 3
  | .prod 1 .. => 1
  | .lol 0 .. => 1
  | _ => 0

theorem hurriedAnswer_optimal : Answers (fun _ => hurriedAnswer) hurriedStudy 0 Cmd.Optimal := by
  intro steps log h
  obtain rfl := logOf_eq h
  refine ⟨Cmd.feasible_of_check (by decide +kernel), ?_⟩
  intro y hy
  have r1 := value_ge hy (r := .adeq 0 "elec" "a") (lo := 4) (hi := 4) (d := [(.lol 0 "elec" "a" 0, 1),
    (.prod 0 "elec" "a" 0, 1), (.fin 0 "elec" "a" 0, -1), (.fout 0 "elec" "a" 0, 1)]) (by decide +kernel) (by decide +kernel)
  have r2 := value_ge hy (r := .adeq 1 "elec" "a") (lo := 1) (hi := 1) (d := [(.lol 1 "elec" "a" 0, 1),
    (.prod 1 "elec" "a" 0, 1), (.fin 1 "elec" "a" 0, -1), (.fout 1 "elec" "a" 0, 1)]) (by decide +kernel) (by decide +kernel)
  have r3 := value_ge hy (r := .stor 0 "elec" "a" "cell") (lo := 0) (hi := 0) (d := [(.fin 0 "elec" "a" 0, -1),
    (.fout 0 "elec" "a" 0, 1), (.cap 0 "elec" "a" 0, 1)]) (by decide +kernel) (by decide +kernel)
  have r4 := value_ge hy (r := .stor 1 "elec" "a" "cell") (lo := 0) (hi := 0) (d := [(.fin 1 "elec" "a" 0, -1),
    (.fout 1 "elec" "a" 0, 1), (.cap 0 "elec" "a" 0, -1), (.cap 1 "elec" "a" 0, 1)]) (by decide +kernel) (by decide +kernel)
  have b0 := hy.1.1 (.cap 0 "elec" "a" 0) 0 8 (by decide +kernel)
  have b1 := hy.1.1 (.cap 1 "elec" "a" 0) 0 8 (by decide +kernel)
  have b2 := hy.1.1 (.prod 0 "elec" "a" 0) 0 3 (by decide +kernel)
  have b3 := hy.1.1 (.lol 1 "elec" "a" 0) 0 1 (by decide +kernel)
  have e : Cmd.objCoefs (logOf hurriedStudy 0) = [(.lol 0 "elec" "a" 0, 100), (.prod 0 "elec" "a" 0, 10), (.cap 0 "elec" "a" 0, 0),
      (.lol 1 "elec" "a" 0, 100), (.prod 1 "elec" "a" 0, 10), (.cap 1 "elec" "a" 0, 0)] := by decide +kernel
  simp only [Cmd.value, List.map_cons, List.map_nil, List.sum_cons, List.sum_nil] at r1 r2 r3 r4
  unfold Cmd.objective
  rw [e]
  simp [Cmd.value, hurriedAnswer]
  linarith [r1.1, r1.2, r2.1, r2.2, r3.1, r3.2, r4.1, r4.2, b0.1, b1.1, b2.2, b3.1]

/-- C147 refuted: with a storage, two time steps cost 50 in one order and 140 in the other one, with optimal answers of the solver -/
theorem C147_refuted : ∃ s s' b, Ready s ∧ Ready s' ∧ 0 < s.nbScn ∧ s'.horizon = s.horizon ∧ s.horizon = 2 ∧
    SameStep s 0 1 s' 0 0 ∧ SameStep s 0 0 s' 0 1 ∧
    (∃ solver r, solveLp solver b s = .ok r ∧ Answers solver s 0 Cmd.Optimal ∧ cost s 0 (dispatchOf s r 0) = 50) ∧
    ∃ solver r, solveLp solver b s' = .ok r ∧ Answers solver s' 0 Cmd.Optimal ∧ cost s' 0 (dispatchOf s' r 0) = 140 :=
  ⟨wholeStudy, hurriedStudy, ⟨[], [], 0, 0⟩, whole_ready, hurriedStudy_ready, by decide +kernel, by decide +kernel, by decide +kernel,
    ⟨by decide +kernel, by exact .nil⟩, ⟨by decide +kernel, by exact .nil⟩,
    ⟨fun _ => wholeAnswer, wholeResult, Ready.solve whole_ready _ _, wholeAnswer_optimal, by decide +kernel⟩,
    ⟨fun _ => hurriedAnswer, _, Ready.solve hurriedStudy_ready _ _, hurriedAnswer_optimal, by decide +kernel⟩⟩

end Hadar.Props
