import Verif.Proofs.Minimum
import Verif.Proofs.LPScn
import Verif.Props.LPExamples

/-!
# C71: there is always a dispatch of least cost

So the assumption made on the solver in C22 and C24 (`Answers solver s k Cmd.Optimal`) can be met for every study with
sensible limits, by one and the same solver.
-/

namespace Hadar.Props

open Hadar Spec

/-- C71: some solver answers optimally to all studies that have sensible limits -/
theorem C71_solver : ∃ solver : Solver, ∀ s, Ready s → ∀ k < s.nbScn, LimitsOk s k →
    Answers solver s k Cmd.Optimal := by
  classical
  refine ⟨fun log => if h : ∃ x, Cmd.Optimal log x then h.choose else fun _ => 0, fun s hs k hk hl steps log h => ?_⟩
  rw [Ready.build hs hk] at h
  cases h
  have hex := exists_optimal_vars (Built.inv hs.built) (idle_code (Built.inv hs.built) hl)
  simp only [dif_pos hex]
  exact hex.choose_spec

/-- C71: an answer of the solver that respects all constraints can be replaced by an optimal one -/
theorem C71_feasible {s : Study} (hs : Ready s) {k : ℕ} (hk : k < s.nbScn) :
    (∃ solver : Solver, Answers solver s k Cmd.Feasible) ↔ ∃ solver : Solver, Answers solver s k Cmd.Optimal := by
  constructor
  · rintro ⟨solver, ha⟩
    have hf := (feasible_iff (Built.inv hs.built) k _).mp (ha _ _ (Ready.build hs hk))
    obtain ⟨x, hx⟩ := exists_optimal_vars (Built.inv hs.built) hf
    refine ⟨fun _ => x, fun steps log h => ?_⟩
    rw [Ready.build hs hk] at h
    cases h
    exact hx
  · rintro ⟨solver, ha⟩
    exact ⟨solver, fun steps log h => (ha steps log h).1⟩

/-- C71: a study with sensible limits has a dispatch of least cost -/
theorem C71_dispatch_partial {s : Study} (hs : Built s) (hself : NoSelfLink s) (h1 : OneStorage s) {k : ℕ}
    (hl : LimitsOk s k) :
    ∃ D, Spec.Feasible s k D ∧ ∀ D', Spec.Feasible s k D' → cost s k D ≤ cost s k D' := by
  obtain ⟨D, hD, ho⟩ := exists_optimal_code (Built.inv hs) (idle_code (Built.inv hs) hl)
  exact ⟨D, feasible_of_code hself h1 hD, fun D' hD' => ho D' (code_of_feasible hself hD')⟩

/-- C71: with such a solver, `solve_lp` returns a dispatch of least cost, in every scenario of every study with sensible limits,
without link from a node to itself and with at most one storage per node -/
theorem C71_solved_partial : ∃ solver : Solver, ∀ s, Ready s → NoSelfLink s → OneStorage s →
    (∀ k < s.nbScn, LimitsOk s k) → ∀ b, ∃ r, solveLp solver b s = .ok r ∧ ∀ k < s.nbScn,
      Spec.Feasible s k (dispatchOf s r k) ∧
      ∀ D, Spec.Feasible s k D → cost s k (dispatchOf s r k) ≤ cost s k D := by
  obtain ⟨solver, h⟩ := C71_solver
  refine ⟨solver, fun s hs hself h1 hl b => ⟨_, Ready.solve hs solver b, fun k hk => ?_⟩⟩
  exact C22_least_cost_partial hs hself h1 (Ready.solve hs solver b) hk (h s hs k hk (hl k hk))

example : ∃ D, Spec.Feasible lpStudy 0 D ∧ ∀ D', Spec.Feasible lpStudy 0 D' → cost lpStudy 0 D ≤ cost lpStudy 0 D' :=
  C71_dispatch_partial lpStudy_ready.built lpStudy_noSelf lpStudy_one lpStudy_limits

/-! ### The theorems applied to concrete cases -/

example : ∃ solver : Solver, Answers solver lpStudy 0 Cmd.Optimal :=
  (C71_feasible lpStudy_ready (by decide +kernel)).mp ⟨fun _ => lpAnswer, fun st log hb => (lpAnswer_optimal st log hb).1⟩

end Hadar.Props
