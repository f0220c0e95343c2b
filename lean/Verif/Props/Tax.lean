import Verif.Proofs.Tax
import Verif.Props.Optimum
import Verif.Props.LPExamples
import Verif.Props.Sensitivity

/-!
# C109: what is charged more is done less
-/

namespace Hadar.Props

open Hadar Spec

variable {s s' : Study} {solver solver' : Solver} {b b' : Benchmark} {r r' : Result} {k k' : ℕ} {x : ℚ} {w : Element → ℕ → ℚ}

/-- C109: when two studies differ by their costs only, each of their solutions is the better one at its own costs -/
theorem C109_costs (hs : Ready s) (hs' : Ready s') (hk : k < s.nbScn) (hk' : k' < s'.nbScn)
    (hc : Compared (fun _ _ => True) Eq Eq s k s' k') (hr : solveLp solver b s = .ok r) (hr' : solveLp solver' b' s' = .ok r')
    (ha : Answers solver s k Cmd.Optimal) (ha' : Answers solver' s' k' Cmd.Optimal) :
    cost s k (dispatchOf s r k) ≤ cost s k (dispatchOf s' r' k') ∧ cost s' k' (dispatchOf s' r' k') ≤ cost s' k' (dispatchOf s r k) := by
  obtain rfl := Ready.result hs hr
  obtain rfl := Ready.result hs' hr'
  have ho := optimal_result (Built.inv hs.built) hk _ b (Ready.answer hs hk ha)
  have ho' := optimal_result (Built.inv hs'.built) hk' _ b' (Ready.answer hs' hk' ha')
  have hc' : Compared (fun _ _ => True) Eq Eq s' k' s k :=
    Compared.imp (fun _ _ h => h) (fun _ _ h => h.symm) (fun _ _ h => h.symm) (Compared.flip hc)
  exact ⟨ho.2 _ (Compared.sameFeasible hc' ho'.1), ho'.2 _ (Compared.sameFeasible hc ho.1)⟩

/-- C109: when `x` is charged for each unit of weight of what elements do, the least cost grows by at most what the former solution would
be charged, and by at least what the new solution is charged; if `x` is positive, the weight of what is done never grows -/
theorem C109 (hs : Ready s) (hs' : Ready s') (hk : k < s.nbScn) (hk' : k' < s'.nbScn) (hc : Taxed x w s k s' k')
    (hr : solveLp solver b s = .ok r) (hr' : solveLp solver' b' s' = .ok r')
    (ha : Answers solver s k Cmd.Optimal) (ha' : Answers solver' s' k' Cmd.Optimal) :
    cost s' k' (dispatchOf s' r' k') ≤ cost s k (dispatchOf s r k) + x * weighed s w (dispatchOf s r k) ∧
    cost s k (dispatchOf s r k) + x * weighed s w (dispatchOf s' r' k') ≤ cost s' k' (dispatchOf s' r' k') ∧
    (0 < x → weighed s w (dispatchOf s' r' k') ≤ weighed s w (dispatchOf s r k)) := by
  obtain ⟨h1, h2⟩ := C109_costs hs hs' hk hk' (Taxed.compared hc) hr hr' ha ha'
  have e1 := Taxed.cost hc (dispatchOf s r k)
  have e2 := Taxed.cost hc (dispatchOf s' r' k')
  refine ⟨by linarith, by linarith, fun hx => ?_⟩
  have : x * weighed s w (dispatchOf s' r' k') ≤ x * weighed s w (dispatchOf s r k) := by linarith
  exact le_of_mul_le_mul_left this hx

/-- C109: raising the cost of one element by the same amount at some time steps, it does not do more on these time steps in all -/
theorem C109_one (hs : Ready s) (hs' : Ready s') (hk : k < s.nbScn) (hk' : k' < s'.nbScn) (hx : 0 < x) {e : Element} (he : e.In s)
    (T : List ℕ) (hc : Taxed x (onlyAt e T) s k s' k') (hr : solveLp solver b s = .ok r) (hr' : solveLp solver' b' s' = .ok r')
    (ha : Answers solver s k Cmd.Optimal) (ha' : Answers solver' s' k' Cmd.Optimal) :
    (sumL ((List.range s.horizon).filter (· ∈ T)) fun t => e.flow (dispatchOf s' r' k') t) ≤
      sumL ((List.range s.horizon).filter (· ∈ T)) fun t => e.flow (dispatchOf s r k) t := by
  have h := (C109 hs hs' hk hk' hc hr hr' ha ha').2.2 hx
  have hi := Built.inv hs.built
  rwa [weighed_onlyAt hi he, weighed_onlyAt hi he] at h

/-- C109: in particular at one time step -/
theorem C109_step (hs : Ready s) (hs' : Ready s') (hk : k < s.nbScn) (hk' : k' < s'.nbScn) (hx : 0 < x) {e : Element} (he : e.In s)
    {t : ℕ} (ht : t < s.horizon) (hc : Taxed x (onlyAt e [t]) s k s' k') (hr : solveLp solver b s = .ok r)
    (hr' : solveLp solver' b' s' = .ok r') (ha : Answers solver s k Cmd.Optimal) (ha' : Answers solver' s' k' Cmd.Optimal) :
    e.flow (dispatchOf s' r' k') t ≤ e.flow (dispatchOf s r k) t := by
  have h := C109_one hs hs' hk hk' hx he [t] hc hr hr' ha ha'
  have : (List.range s.horizon).filter (· ∈ [t]) = [t] := by
    have : (fun a : ℕ => decide (a ∈ [t])) = fun a => a == t := by funext a; by_cases h : a = t <;> simp [h]
    rw [this, List.filter_beq]
    rw [List.count_eq_one_of_mem List.nodup_range (by simpa using ht)]
    rfl
  rw [this] at h
  simpa [sumL] using h

/-! ### Concrete cases -/

/-- what a unit emits: 20 for `fuel`, 1 for `well` -/
def emissions : Element → ℕ → ℚ := fun e _ =>
  if e = .prod "elec" "a" 1 then 20 else if e = .prod "gas" "g" 0 then 1 else 0

/-- `lpStudy` with a price of 3 on emissions -/
def carbonCalls : List Call :=
  [.studyNetwork "elec", .netNode 0 "a", .nodeConsumption 0 "load" (.num 100) (.num 10),
   .nodeProduction 0 "nuke" (.num 20) (.num 15), .nodeProduction 0 "fuel" (.num 130) (.num 5),
   .netNode 0 "b", .nodeConsumption 0 "load" (.num 100) (.num 6),
   .nodeStorage 0 ⟨"cell", .num 8, .num 2, .num 2, .num 0, 5, .num (9/10)⟩,
   .netLink 0 "a" "b" (.num 1) (.num 4),
   .studyNetwork "gas", .netNode 1 "g", .nodeProduction 1 "well" (.num 4) (.num 10),
   .nodeToConverter 1 "conv" (.num (1/2)),
   .nodeConverter 1 "conv" "elec" "b" (.num 3) (.num 2)]

def carbon : Study := ((World.start 1 1).run carbonCalls).study

/-- `lpStudy` with a dearer link -/
def feeCalls : List Call :=
  [.studyNetwork "elec", .netNode 0 "a", .nodeConsumption 0 "load" (.num 100) (.num 10),
   .nodeProduction 0 "nuke" (.num 20) (.num 15), .nodeProduction 0 "fuel" (.num 70) (.num 5),
   .netNode 0 "b", .nodeConsumption 0 "load" (.num 100) (.num 6),
   .nodeStorage 0 ⟨"cell", .num 8, .num 2, .num 2, .num 0, 5, .num (9/10)⟩,
   .netLink 0 "a" "b" (.num 31) (.num 4),
   .studyNetwork "gas", .netNode 1 "g", .nodeProduction 1 "well" (.num 1) (.num 10),
   .nodeToConverter 1 "conv" (.num (1/2)),
   .nodeConverter 1 "conv" "elec" "b" (.num 3) (.num 2)]

def fee : Study := ((World.start 1 1).run feeCalls).study

theorem carbon_ready : Ready carbon where
  built := ⟨1, 1, carbonCalls, rawCalls_of (by decide +kernel), rfl⟩
  complete := by unfold CompleteConverters; decide +kernel
  ratios := RatiosNonzero.usable (by unfold RatiosNonzero; decide +kernel)
  clean := cleanSources_of (by decide +kernel)

theorem fee_ready : Ready fee where
  built := ⟨1, 1, feeCalls, rawCalls_of (by decide +kernel), rfl⟩
  complete := by unfold CompleteConverters; decide +kernel
  ratios := RatiosNonzero.usable (by unfold RatiosNonzero; decide +kernel)
  clean := cleanSources_of (by decide +kernel)

theorem carbon_taxed : Taxed 3 emissions lpStudy 0 carbon 0 := by decide +kernel

theorem fee_taxed : Taxed 30 (onlyAt (.link "elec" "a" 0) [0]) lpStudy 0 fee 0 := by decide +kernel

example : ¬ Taxed 3 emissions lpStudy 0 fee 0 := by decide +kernel

/-- whatever the optimal solver, emissions are at most 6 with the price, and the cost between 233 and 251 -/
example (solver' : Solver) (r' : Result) (hr' : solveLp solver' ⟨[], [], 0, 0⟩ carbon = .ok r')
    (ha : Answers solver' carbon 0 Cmd.Optimal) :
    weighed lpStudy emissions (dispatchOf carbon r' 0) ≤ 6 ∧ cost carbon 0 (dispatchOf carbon r' 0) ≤ 251 := by
  have h := C109 lpStudy_ready carbon_ready (by decide +kernel) (by decide +kernel) carbon_taxed
    (Ready.solve lpStudy_ready (fun _ => lpAnswer) ⟨[], [], 0, 0⟩) hr' lpAnswer_optimal ha
  refine ⟨(h.2.2 (by norm_num)).trans (le_of_eq ?_), h.1.trans (le_of_eq ?_)⟩ <;> decide +kernel

/-- whatever the optimal solver, the dearer link carries at most 1 -/
example (solver' : Solver) (r' : Result) (hr' : solveLp solver' ⟨[], [], 0, 0⟩ fee = .ok r')
    (ha : Answers solver' fee 0 Cmd.Optimal) : (dispatchOf fee r' 0).link "elec" "a" 0 0 ≤ 1 := by
  have h := C109_step lpStudy_ready fee_ready (by decide +kernel) (by decide +kernel) (by norm_num)
    (e := .link "elec" "a" 0) ⟨_, hasNode_inNode (s := lpStudy) (g := "elec") (d := "a") (by decide +kernel), by decide +kernel⟩ (by decide +kernel) fee_taxed
    (Ready.solve lpStudy_ready (fun _ => lpAnswer) ⟨[], [], 0, 0⟩) hr' lpAnswer_optimal ha
  refine h.trans (le_of_eq ?_)
  decide +kernel

theorem carbon_limits : LimitsOk carbon 0 := by
  have h : (∀ p ∈ carbon.networks, ∀ q ∈ p.2.nodes,
      (∀ c ∈ q.2.consumptions, ∀ t < carbon.horizon, 0 ≤ val c.quantity 0 t) ∧
      (∀ c ∈ q.2.productions, ∀ t < carbon.horizon, 0 ≤ val c.quantity 0 t) ∧
      (∀ c ∈ q.2.links, ∀ t < carbon.horizon, 0 ≤ val c.quantity 0 t) ∧
      (∀ c ∈ q.2.storages, ∀ t < carbon.horizon, 0 ≤ c.initCapacity ∧
        c.initCapacity ≤ val c.capacity 0 t ∧ 0 ≤ val c.flowIn 0 t ∧ 0 ≤ val c.flowOut 0 t)) := by
    decide +kernel
  refine ⟨?_, ?_, ?_, ?_, by decide +kernel⟩
  · rintro g d n ⟨net, hg, hd⟩; exact (h _ hg _ hd).1
  · rintro g d n ⟨net, hg, hd⟩; exact (h _ hg _ hd).2.1
  · rintro g d n ⟨net, hg, hd⟩; exact (h _ hg _ hd).2.2.1
  · rintro g d n ⟨net, hg, hd⟩; exact (h _ hg _ hd).2.2.2

/-- such solvers exist -/
example : ∃ solver, Answers solver carbon 0 Cmd.Optimal := by
  obtain ⟨solver, h⟩ := C71_solver
  exact ⟨solver, h carbon carbon_ready 0 (by decide +kernel) carbon_limits⟩

end Hadar.Props
