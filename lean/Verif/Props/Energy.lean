import Verif.Proofs.Energy
import Verif.Props.LP
import Verif.Props.Prices

/-!
# C80: accounts of energy
-/

namespace Hadar.Props

open Spec

variable {s : Study} {k : ℕ} {solver : Solver} {b : Benchmark} {r : Result}

/-- C80, at each time step and for every study: what consumptions, storages and converters get is what productions, storages and
converters give, and what links from nodes to themselves carry. Missing: that this last term is zero (`C80_refuted`). -/
theorem C80_self_partial (hs : Ready s) (hr : solveLp solver b s = .ok r) (hk : k < s.nbScn)
    (ha : Answers solver s k Cmd.Feasible) {t : ℕ} (ht : t < s.horizon) :
    served s k (dispatchOf s r k) t + put s (dispatchOf s r k) t + used s (dispatchOf s r k) t =
      produced s (dispatchOf s r k) t + released s (dispatchOf s r k) t + converted s (dispatchOf s r k) t +
        total s fun g d n => selfFlow (dispatchOf s r k) g d n t :=
  account_self (Built.inv hs.built) (Ready.dest hs) fun _ _ _ hn => C19_balance_self_partial hs hr hk ha hn ht

/-- C80, at each time step, without link from a node to itself: what consumptions, storages and converters get is what productions,
storages and converters give. Missing: studies with such a link, see `C80_refuted`. -/
theorem C80_step_partial (hs : Ready s) (hself : NoSelfLink s) (hr : solveLp solver b s = .ok r) (hk : k < s.nbScn)
    (ha : Answers solver s k Cmd.Feasible) {t : ℕ} (ht : t < s.horizon) :
    served s k (dispatchOf s r k) t + put s (dispatchOf s r k) t + used s (dispatchOf s r k) t =
      produced s (dispatchOf s r k) t + released s (dispatchOf s r k) t + converted s (dispatchOf s r k) t :=
  account_step (Built.inv hs.built) (Ready.dest hs) (C19_balance_partial hs hself hr hk ha) ht

/-- the result of `solve_lp` is feasible if the answers of the solver are, without link from a node to itself and with at most one
storage per node -/
theorem solved_feasible (hs : Ready s) (hself : NoSelfLink s) (h1 : OneStorage s) (hr : solveLp solver b s = .ok r)
    (hk : k < s.nbScn) (ha : Answers solver s k Cmd.Feasible) : Spec.Feasible s k (dispatchOf s r k) := by
  obtain rfl := Ready.result hs hr
  exact feasible_of_code hself h1 ((codeFeasible_iff (Built.inv hs.built) hk _ b).mp (Ready.answer hs hk ha))

/-- C80, over the whole study, without link from a node to itself and with at most one storage per node: what is served, used by
converters, lost by storages and left in them is what is produced, given by converters and held by storages at first. Missing: the other
studies, see `C80_refuted` and `C80_storage_refuted`. -/
theorem C80_total_partial (hs : Ready s) (hself : NoSelfLink s) (h1 : OneStorage s) (hr : solveLp solver b s = .ok r)
    (hk : k < s.nbScn) (ha : Answers solver s k Cmd.Feasible) :
    overTime s (served s k (dispatchOf s r k)) + overTime s (used s (dispatchOf s r k)) +
        overTime s (lost s k (dispatchOf s r k)) + heldLast s (dispatchOf s r k) =
      overTime s (produced s (dispatchOf s r k)) + overTime s (converted s (dispatchOf s r k)) + heldFirst s :=
  account_total (Built.inv hs.built) (Ready.dest hs) (solved_feasible hs hself h1 hr hk ha)

/-- C80: when storages and converters make no energy, no more is served than what is produced and held by storages at first. Missing: as
in `C80_total_partial`. -/
theorem C80_bound_partial (hs : Ready s) (hself : NoSelfLink s) (h1 : OneStorage s) (hr : solveLp solver b s = .ok r)
    (hk : k < s.nbScn) (ha : Answers solver s k Cmd.Feasible) (hh : 0 < s.horizon) (hg : NoGain s k)
    (hc : ConvertersLose s k) :
    overTime s (served s k (dispatchOf s r k)) ≤ overTime s (produced s (dispatchOf s r k)) + heldFirst s := by
  have hi := Built.inv hs.built
  have hD := solved_feasible hs hself h1 hr hk ha
  have e := C80_total_partial hs hself h1 hr hk ha
  have e1 : overTime s (converted s (dispatchOf s r k)) ≤ overTime s (used s (dispatchOf s r k)) :=
    sumL_le fun t ht => converted_le hi hD.bounds hD.ratios hc (List.mem_range.mp ht)
  have e2 : 0 ≤ overTime s (lost s k (dispatchOf s r k)) :=
    sumL_nonneg' fun t ht => lost_nonneg hD.bounds hg (List.mem_range.mp ht)
  have e3 := heldLast_nonneg hD.bounds hh
  linarith

/-! ### What fails -/

/-- C80 refuted: with a link from a node to itself, 10 is served although nothing is produced, stored or converted -/
theorem C80_refuted : ∃ s solver b r, Ready s ∧ OneStorage s ∧ 0 < s.nbScn ∧ Answers solver s 0 Cmd.Optimal ∧
    solveLp solver b s = .ok r ∧ served s 0 (dispatchOf s r 0) 0 = 10 ∧ produced s (dispatchOf s r 0) 0 = 0 ∧ s.converters = [] ∧
    heldFirst s = 0 ∧ released s (dispatchOf s r 0) 0 = 0 := by
  refine ⟨selfStudy, fun _ => selfAnswer, ⟨[], [], 0, 0⟩, _, selfStudy_ready, ?_, by decide +kernel, selfAnswer_optimal,
    Ready.solve selfStudy_ready _ _, by decide +kernel, by decide +kernel, by decide +kernel, by decide +kernel,
    by decide +kernel⟩
  rintro g d n ⟨net, hg, hd⟩
  have : ∀ p ∈ selfStudy.networks, ∀ q ∈ p.2.nodes, q.2.storages.length ≤ 1 := by decide +kernel
  exact this _ hg _ hd

/-- C80 refuted: with two storages at a node, 10 is served although nothing is produced or converted, storages hold nothing at first
and lose nothing -/
theorem C80_storage_refuted : ∃ s solver b r, Ready s ∧ NoSelfLink s ∧ 0 < s.nbScn ∧ Answers solver s 0 Cmd.Optimal ∧
    solveLp solver b s = .ok r ∧ overTime s (served s 0 (dispatchOf s r 0)) = 10 ∧
    overTime s (produced s (dispatchOf s r 0)) = 0 ∧ s.converters = [] ∧ heldFirst s = 0 := by
  refine ⟨storStudy, fun _ => storAnswer, ⟨[], [], 0, 0⟩, _, storStudy_ready, ?_, by decide +kernel, storAnswer_optimal,
    Ready.solve storStudy_ready _ _, by decide +kernel, by decide +kernel, by decide +kernel, by decide +kernel⟩
  rintro g d n ⟨net, hg, hd⟩
  have : ∀ p ∈ storStudy.networks, ∀ q ∈ p.2.nodes, ∀ l ∈ q.2.links, l.dest ≠ q.1 := by decide +kernel
  exact this _ hg _ hd

def freeCalls : List Call :=
  [.studyNetwork "n", .netNode 0 "a", .nodeConsumption 0 "load" (.num 100) (.num 10),
   .nodeConverter 0 "conv" "n" "a" (.num 10) (.num 0)]

/-- a converter that was given a destination and no source -/
def freeStudy : Study := ((World.start 1 1).run freeCalls).study

def freeAnswer : Var → ℚ
  | .convDest .. => 10
  | _ => 0

theorem freeStudy_ready : Ready freeStudy where
  built := ⟨1, 1, freeCalls, by
    intro c hc
    simp only [freeCalls, List.mem_cons, List.not_mem_nil, or_false] at hc
    rcases hc with rfl | rfl | rfl | rfl <;> simp [RawCall], rfl⟩
  complete := by unfold CompleteConverters; decide +kernel
  ratios := RatiosNonzero.usable (by unfold RatiosNonzero; decide +kernel)
  clean := cleanSources_of (by decide +kernel)

theorem freeAnswer_optimal : Answers (fun _ => freeAnswer) freeStudy 0 Cmd.Optimal := by
  intro steps log h
  obtain rfl := logOf_eq h
  refine ⟨Cmd.feasible_of_check (by decide +kernel), ?_⟩
  intro y hy
  have h1 := hy.1.1 (.lol 0 "n" "a" 0) 0 10 (by decide +kernel)
  have e : Cmd.objCoefs (logOf freeStudy 0) = [(.lol 0 "n" "a" 0, 100), (.convDest 0 "conv", 0)] := by
    decide +kernel
  unfold Cmd.objective
  rw [e]
  simp [Cmd.value, freeAnswer]
  linarith [h1.1]

/-- C80, why converters need sources: `solve_lp` accepts a converter without any source and serves with it a load of 10, although nothing
is produced, stored or used -/
theorem C80_free_energy : ∃ s solver b r, Ready s ∧ NoSelfLink s ∧ OneStorage s ∧ NoGain s 0 ∧ 0 < s.nbScn ∧
    Answers solver s 0 Cmd.Optimal ∧ solveLp solver b s = .ok r ∧ overTime s (served s 0 (dispatchOf s r 0)) = 10 ∧
    overTime s (produced s (dispatchOf s r 0)) = 0 ∧ overTime s (used s (dispatchOf s r 0)) = 0 ∧ heldFirst s = 0 := by
  refine ⟨freeStudy, fun _ => freeAnswer, ⟨[], [], 0, 0⟩, _, freeStudy_ready, ?_, ?_, ?_, by decide +kernel, freeAnswer_optimal,
    Ready.solve freeStudy_ready _ _, by decide +kernel, by decide +kernel, by decide +kernel, by decide +kernel⟩
  · rintro g d n ⟨net, hg, hd⟩
    have : ∀ p ∈ freeStudy.networks, ∀ q ∈ p.2.nodes, ∀ l ∈ q.2.links, l.dest ≠ q.1 := by decide +kernel
    exact this _ hg _ hd
  · rintro g d n ⟨net, hg, hd⟩
    have : ∀ p ∈ freeStudy.networks, ∀ q ∈ p.2.nodes, q.2.storages.length ≤ 1 := by decide +kernel
    exact this _ hg _ hd
  · rintro g d n ⟨net, hg, hd⟩
    have : ∀ p ∈ freeStudy.networks, ∀ q ∈ p.2.nodes, ∀ c ∈ q.2.storages, ∀ t < freeStudy.horizon, val c.eff 0 t ≤ 1 := by
      decide +kernel
    exact this _ hg _ hd

/-! ### A concrete case -/

theorem priceStudy_noGain : NoGain priceStudy 0 := by
  rintro g d n ⟨net, hg, hd⟩
  have : ∀ p ∈ priceStudy.networks, ∀ q ∈ p.2.nodes, ∀ c ∈ q.2.storages, ∀ t < priceStudy.horizon, val c.eff 0 t ≤ 1 := by
    decide +kernel
  exact this _ hg _ hd

theorem answers_feasible_of_optimal (h : Answers solver s k Cmd.Optimal) : Answers solver s k Cmd.Feasible :=
  fun steps log e => (h steps log e).1

/-- C80: 14 are served over two time steps, and 14 are produced -/
example : overTime priceStudy (served priceStudy 0 (dispatchOf priceStudy priceResult 0)) ≤
    overTime priceStudy (produced priceStudy (dispatchOf priceStudy priceResult 0)) + heldFirst priceStudy :=
  C80_bound_partial priceStudy_ready priceStudy_noSelf priceStudy_one priceStudy_solved (by decide +kernel)
    (answers_feasible_of_optimal priceAnswer_optimal) (by decide +kernel) priceStudy_noGain
    (by unfold ConvertersLose; decide +kernel)

example : overTime priceStudy (served priceStudy 0 (dispatchOf priceStudy priceResult 0)) = 14 := by decide +kernel

/-! ### The theorems applied to concrete cases -/

example := C80_self_partial selfStudy_ready (Ready.solve selfStudy_ready _ ⟨[], [], 0, 0⟩) (by decide +kernel)
  (answers_feasible_of_optimal selfAnswer_optimal) (t := 0) (by decide +kernel)

example := C80_step_partial priceStudy_ready priceStudy_noSelf priceStudy_solved (by decide +kernel)
  (answers_feasible_of_optimal priceAnswer_optimal) (t := 1) (by decide +kernel)

example := C80_total_partial priceStudy_ready priceStudy_noSelf priceStudy_one priceStudy_solved (by decide +kernel)
  (answers_feasible_of_optimal priceAnswer_optimal)

end Hadar.Props
