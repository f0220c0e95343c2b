import Verif.Proofs.Tolerance
import Verif.Props.Worth

/-!
# C101: results of a solver that breaks limits and constraints a little
-/

namespace Hadar.Props

open Spec

variable {s : Study} {k : ℕ} {solver solver' : Solver} {b b' : Benchmark} {r r' : Result} {P : Prices} {e gap : ℚ}

/-- C101, without link from a node to itself and with at most one storage per node: when the solver breaks no bound and no constraint by
more than `e`, neither does the result: every flow and level within the limits of the study, every node balanced, every storage following
its flows and every converter its ratios, give or take `e`. -/
theorem C101_near (hs : Ready s) (hself : NoSelfLink s) (h1 : OneStorage s) (hk : k < s.nbScn)
    (hr : solveLp solver b s = .ok r) (ha : Answers solver s k (NearAnswer e)) : NearFeasible e s k (dispatchOf s r k) := by
  obtain rfl := Ready.result hs hr
  have hi := Built.inv hs.built
  exact NearFeasible.congr (agree_result hi _ b hk) (nearFeasible_of hi hself h1 (Ready.answer hs hk ha))

/-- C101: errors on the level of a storage add up, one at each time step, and no more -/
theorem C101_level (hs : Ready s) (hself : NoSelfLink s) (h1 : OneStorage s) (hk : k < s.nbScn)
    (hr : solveLp solver b s = .ok r) (ha : Answers solver s k (NearAnswer e)) {g d : String} {n : InputNode} (hn : HasNode s g d n)
    {i : ℕ} {c : Storage} (hc : n.storages[i]? = some c) {t : ℕ} (ht : t < s.horizon) :
    Near ((t + 1) * e) ((dispatchOf s r k).cap g d i t) (levelFrom k (dispatchOf s r k) g d i c t) :=
  level_near (C101_near hs hself h1 hk hr ha) hn hc t ht

/-- C101: whatever the prices, not negative where a converter takes energy to no use, the result costs at least what the study is worth
at these prices, less what the errors are worth -/
theorem C101_lower (hs : Ready s) (hself : NoSelfLink s) (h1 : OneStorage s) (hk : k < s.nbScn)
    (hr : solveLp solver b s = .ok r) (ha : Answers solver s k (NearAnswer e)) (hz : DrainsPriced s k P) :
    worth s k P ≤ cost s k (dispatchOf s r k) + e * slackWorth s k P :=
  worth_near (Built.inv hs.built) (Ready.dest hs) hz (C101_near hs hself h1 hk hr ha)

/-- C101: the prices of an exact result bound the cost of the results of all solvers that err by at most `e`, whatever `e` -/
theorem C101_cost (hs : Ready s) (hself : NoSelfLink s) (h1 : OneStorage s) (hk : k < s.nbScn)
    (hr : solveLp solver b s = .ok r) (ha : Answers solver s k Cmd.Optimal) :
    ∃ P, Equilibrium s k (dispatchOf s r k) P ∧
      ∀ e solver' b' r', solveLp solver' b' s = .ok r' → Answers solver' s k (NearAnswer e) →
        cost s k (dispatchOf s r k) ≤ cost s k (dispatchOf s r' k) + e * slackWorth s k P := by
  obtain ⟨P, he, hw⟩ := C81_worth hs hself h1 hk hr ha
  refine ⟨P, he, fun e solver' b' r' hr' ha' => ?_⟩
  rw [hw]
  exact C101_lower hs hself h1 hk hr' ha' he.drains

/-- C101: so the cost of a nearly optimal result is close to the least cost, on both sides -/
theorem C101_gap (hs : Ready s) (hself : NoSelfLink s) (h1 : OneStorage s) (hk : k < s.nbScn)
    (hr : solveLp solver b s = .ok r) (ha : Answers solver s k Cmd.Optimal) :
    ∃ P, Equilibrium s k (dispatchOf s r k) P ∧
      ∀ e gap solver' b' r', solveLp solver' b' s = .ok r' → Answers solver' s k (NearOptimal e gap) →
        cost s k (dispatchOf s r k) - e * slackWorth s k P ≤ cost s k (dispatchOf s r' k) ∧
        cost s k (dispatchOf s r' k) ≤ cost s k (dispatchOf s r k) + gap := by
  obtain ⟨P, he, h⟩ := C101_cost hs hself h1 hk hr ha
  refine ⟨P, he, fun e gap solver' b' r' hr' ha' => ⟨?_, ?_⟩⟩
  · linarith [h e solver' b' r' hr' fun steps log hb => (ha' steps log hb).1]
  · have hi := Built.inv hs.built
    have h2 := (Ready.answer hs hk ha').2 _ (Ready.answer hs hk ha).1
    obtain rfl := Ready.result hs hr
    obtain rfl := Ready.result hs hr'
    rwa [objective_result hi hk _ b', objective_result hi hk _ b] at h2

/-- C101: feasible without error is feasible -/
theorem C101_exact {D : Dispatch} : NearFeasible 0 s k D ↔ Spec.Feasible s k D := by
  have hw : ∀ x u : ℚ, NearLimits 0 x u ↔ 0 ≤ x ∧ x ≤ u := fun x u => by simp [NearLimits]
  have hn : ∀ x y : ℚ, Near 0 x y ↔ x = y := fun x y => by
    simp only [Near, add_zero]
    exact ⟨fun h => le_antisymm h.1 h.2, fun h => ⟨h.le, h.ge⟩⟩
  constructor
  · rintro ⟨⟨h1, h2, h3, h4, h5, h6⟩, h7, h8, h9⟩
    simp only [hw, hn, neg_zero, add_zero] at h1 h2 h3 h4 h5 h6 h7 h8 h9
    exact ⟨⟨h1, h2, h3, h4, h5, h6⟩, h7, h8, h9⟩
  · rintro ⟨⟨h1, h2, h3, h4, h5, h6⟩, h7, h8, h9⟩
    refine ⟨⟨?_, ?_, ?_, ?_, ?_, ?_⟩, ?_, ?_, ?_⟩ <;> simp only [hw, hn, neg_zero, add_zero] <;> assumption

/-! ### A concrete case -/

/-- an answer for `priceStudy` with errors of a thousandth: node `a` lacks energy, and its storage fills from nothing -/
def roughAnswer : Var → ℚ
  | .prod _ "elec" "a" 0 => 3 - 1 / 1000
  | .prod _ "elec" "b" 0 => 4
  | .link _ "elec" "a" 0 => 2
  | .cap 0 "elec" "a" 0 => 1 / 1000
  | .cap 1 "elec" "a" 0 => 2 / 1000
  | _ => 0

/-- `NearAnswer`, call by call -/
def nearCheck (e : ℚ) (log : List Cmd) (x : Var → ℚ) : Cmd → Bool
  | .numVar v lb ub => lb - e ≤ x v && x v ≤ ub + e
  | .numVarInf v lb pos => lb - e ≤ x v && pos
  | .constraint r lo hi => lo - e ≤ Cmd.value (Cmd.coefs log r) x && Cmd.value (Cmd.coefs log r) x ≤ hi + e
  | _ => true

theorem near_of_check {log : List Cmd} {x : Var → ℚ} (h : log.all (nearCheck e log x) = true) : NearAnswer e log x := by
  rw [List.all_eq_true] at h
  refine ⟨fun v lb ub hm => ?_, fun v lb pos hm => ?_, fun r lo hi hm => ?_⟩ <;>
    · have := h _ hm
      simpa [nearCheck] using this

theorem roughAnswer_near : Answers (fun _ => roughAnswer) priceStudy 0 (NearAnswer (1 / 1000)) := by
  intro steps log h
  obtain rfl := logOf_eq h
  exact near_of_check (by decide +kernel)

def roughResult : Result := resultAll priceStudy (valsOf (fun _ => roughAnswer) priceStudy) ⟨[], [], 0, 0⟩

theorem rough_solved : solveLp (fun _ => roughAnswer) ⟨[], [], 0, 0⟩ priceStudy = .ok roughResult :=
  Ready.solve priceStudy_ready _ _

/-- the result is feasible up to a thousandth ... -/
example : NearFeasible (1 / 1000) priceStudy 0 (dispatchOf priceStudy roughResult 0) :=
  C101_near priceStudy_ready priceStudy_noSelf priceStudy_one (by decide +kernel) rough_solved roughAnswer_near

/-- ... but not feasible: the node lacks energy ... -/
example : ¬ Spec.Feasible priceStudy 0 (dispatchOf priceStudy roughResult 0) := by
  intro h
  have h1 := h.balanced "elec" "a" _ priceStudy_a 0 (by decide +kernel)
  revert h1
  decide +kernel

/-- ... and after two steps the level is two thousandths away from what the flows explain -/
example : (dispatchOf priceStudy roughResult 0).cap "elec" "a" 0 1 -
    levelFrom 0 (dispatchOf priceStudy roughResult 0) "elec" "a" 0 ⟨"cell", numOf 8, numOf 2, numOf 2, numOf 1, 0, numOf (1 / 2)⟩ 1 =
    2 * (1 / 1000) := by decide +kernel

/-- it costs less than the least cost, by less than what errors of a thousandth are worth -/
example : cost priceStudy 0 (dispatchOf priceStudy roughResult 0) < cost priceStudy 0 (dispatchOf priceStudy priceResult 0) ∧
    cost priceStudy 0 (dispatchOf priceStudy priceResult 0) <
      cost priceStudy 0 (dispatchOf priceStudy roughResult 0) + 1 / 1000 * slackWorth priceStudy 0 somePrices := by decide +kernel

theorem roughAnswer_optimal : Answers (fun _ => roughAnswer) priceStudy 0 (NearOptimal (1 / 1000) 0) := by
  intro steps log h
  refine ⟨roughAnswer_near steps log h, fun y hy => ?_⟩
  have h1 := (priceAnswer_optimal steps log h).2 y hy
  have h2 : Cmd.objective log roughAnswer ≤ Cmd.objective log priceAnswer := by
    obtain rfl := logOf_eq h
    decide +kernel
  linarith

/-! ### The theorems applied to concrete cases -/

example := C101_level priceStudy_ready priceStudy_noSelf priceStudy_one (by decide +kernel) rough_solved roughAnswer_near priceStudy_a
  (i := 0) (c := ⟨"cell", numOf 8, numOf 2, numOf 2, numOf 1, 0, numOf (1 / 2)⟩) (by decide +kernel) (t := 1) (by decide +kernel)

theorem price_drains : DrainsPriced priceStudy 0 somePrices := by
  intro p hp g d r hq t ht h0
  have : ∀ p ∈ priceStudy.converters, ∀ q ∈ p.2.srcRatios, ∀ t < priceStudy.horizon, val q.2 0 t ≠ 0 := by decide +kernel
  exact absurd h0 (this p hp _ hq t ht)

example := C101_lower priceStudy_ready priceStudy_noSelf priceStudy_one (by decide +kernel) rough_solved roughAnswer_near price_drains

example : ∃ P, Equilibrium priceStudy 0 (dispatchOf priceStudy priceResult 0) P ∧
    cost priceStudy 0 (dispatchOf priceStudy priceResult 0) ≤
      cost priceStudy 0 (dispatchOf priceStudy roughResult 0) + 1 / 1000 * slackWorth priceStudy 0 P := by
  obtain ⟨P, he, h⟩ := C101_cost priceStudy_ready priceStudy_noSelf priceStudy_one (by decide +kernel) priceStudy_solved
    priceAnswer_optimal
  exact ⟨P, he, h _ _ _ _ rough_solved roughAnswer_near⟩

example : ∃ P, Equilibrium priceStudy 0 (dispatchOf priceStudy priceResult 0) P ∧
    cost priceStudy 0 (dispatchOf priceStudy priceResult 0) - 1 / 1000 * slackWorth priceStudy 0 P ≤
      cost priceStudy 0 (dispatchOf priceStudy roughResult 0) ∧
    cost priceStudy 0 (dispatchOf priceStudy roughResult 0) ≤ cost priceStudy 0 (dispatchOf priceStudy priceResult 0) + 0 := by
  obtain ⟨P, he, h⟩ := C101_gap priceStudy_ready priceStudy_noSelf priceStudy_one (by decide +kernel) priceStudy_solved
    priceAnswer_optimal
  exact ⟨P, he, h _ _ _ _ _ rough_solved roughAnswer_optimal⟩

end Hadar.Props
