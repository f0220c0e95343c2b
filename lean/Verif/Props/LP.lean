import Verif.Proofs.LPReady

/-!
# Properties of the linear programming optimizer (C18 - C27)

The solver is a parameter: what it answers to the problem of a scenario is an hypothesis
(`Spec.Answers`), never a definition. `Cmd.InBounds`, `Cmd.Feasible` and `Cmd.Optimal` say what the
calls made by the code to ortools mean.
-/

namespace Hadar.Props

open Hadar Spec

/-! ### C18 -/

/-- C18: in the result, every flow and level is within the limits of the study -/
theorem C18_bounds {s : Study} (hs : Ready s) {solver : Solver} {b : Benchmark} {r : Result}
    (hr : solveLp solver b s = .ok r) {k : ℕ} (hk : k < s.nbScn)
    (ha : Answers solver s k Cmd.InBounds) : Bounds s k (dispatchOf s r k) := by
  obtain rfl := Ready.result hs hr
  have hi := Built.inv hs.built
  exact Bounds.congr (agree_result hi _ b hk) (bounds_of_inBounds hi (Ready.answer hs hk ha))

/-- C18: a consumption is given between nothing and what it asks -/
theorem C18_given {s : Study} (hs : Ready s) {solver : Solver} {b : Benchmark} {r : Result}
    (hr : solveLp solver b s = .ok r) {k : ℕ} (hk : k < s.nbScn)
    (ha : Answers solver s k Cmd.InBounds) {g d : String} {n : InputNode} (hn : HasNode s g d n)
    {i : ℕ} {c : Consumption} (hc : n.consumptions[i]? = some c) {t : ℕ} (ht : t < s.horizon) :
    0 ≤ cellAt (outNode r g d).consumptions i (·.quantity) k t ∧
    cellAt (outNode r g d).consumptions i (·.quantity) k t ≤ val c.quantity k t := by
  have h := (C18_bounds hs hr hk ha).consumptions g d n hn i c hc t ht
  simp only [dispatchOf, inNode_eq (Built.inv hs.built) hn, hc] at h
  constructor <;> linarith [h.1, h.2]

/-! ### C19 -/

/-- C19, with an additional hypothesis: energy is conserved at every node of a study without link
from a node to itself. Missing: studies with such a link, see `C19_refuted`. -/
theorem C19_balance_partial {s : Study} (hs : Ready s) (hself : NoSelfLink s) {solver : Solver}
    {b : Benchmark} {r : Result} (hr : solveLp solver b s = .ok r) {k : ℕ} (hk : k < s.nbScn)
    (ha : Answers solver s k Cmd.Feasible) : Balanced s k (dispatchOf s r k) := by
  obtain rfl := Ready.result hs hr
  have hi := Built.inv hs.built
  have h := (codeFeasible_iff hi hk _ b).mp (Ready.answer hs hk ha)
  intro g d n hn t ht
  rw [← h.balance g d n hn t ht, selfFlow_zero hself hn, add_zero]

/-- C19, what holds of every study: the only energy that appears at a node is what its links to
itself carry, counted once more. Missing: that this term is zero. -/
theorem C19_balance_self_partial {s : Study} (hs : Ready s) {solver : Solver}
    {b : Benchmark} {r : Result} (hr : solveLp solver b s = .ok r) {k : ℕ} (hk : k < s.nbScn)
    (ha : Answers solver s k Cmd.Feasible) {g d : String} {n : InputNode} (hn : HasNode s g d n)
    {t : ℕ} (ht : t < s.horizon) :
    incoming s (dispatchOf s r k) g d n t + selfFlow (dispatchOf s r k) g d n t =
      outgoing s k (dispatchOf s r k) g d n t := by
  obtain rfl := Ready.result hs hr
  exact ((codeFeasible_iff (Built.inv hs.built) hk _ b).mp (Ready.answer hs hk ha)).balance
    g d n hn t ht

/-! ### C20 -/

/-- C20, for the first storage of each node. Missing: the other storages of the node, see
`C20_refuted`. -/
theorem C20_first_storage_partial {s : Study} (hs : Ready s) {solver : Solver}
    {b : Benchmark} {r : Result} (hr : solveLp solver b s = .ok r) {k : ℕ} (hk : k < s.nbScn)
    (ha : Answers solver s k Cmd.Feasible) {g d : String} {n : InputNode} (hn : HasNode s g d n)
    {c : Storage} (hc : n.storages[0]? = some c) {t : ℕ} (ht : t < s.horizon) :
    Evolves k (dispatchOf s r k) g d 0 c t := by
  obtain rfl := Ready.result hs hr
  exact ((codeFeasible_iff (Built.inv hs.built) hk _ b).mp (Ready.answer hs hk ha)).storages
    g d n hn c (by rw [List.head?_eq_getElem?]; exact hc) t ht

/-- C20, for studies with at most one storage per node. Missing: see `C20_refuted`. -/
theorem C20_one_storage_partial {s : Study} (hs : Ready s) (h1 : OneStorage s) {solver : Solver}
    {b : Benchmark} {r : Result} (hr : solveLp solver b s = .ok r) {k : ℕ} (hk : k < s.nbScn)
    (ha : Answers solver s k Cmd.Feasible) : StorageOk s k (dispatchOf s r k) := by
  intro g d n hn i c hc t ht
  have := h1 g d n hn
  have hi := lt_of_getElem?_some hc
  have : i = 0 := by omega
  subst this
  exact C20_first_storage_partial hs hr hk ha hn hc ht

/-! ### C21 -/

/-- C21: the output of a converter is its intake from each source times the ratio -/
theorem C21_ratios {s : Study} (hs : Ready s) {solver : Solver} {b : Benchmark} {r : Result}
    (hr : solveLp solver b s = .ok r) {k : ℕ} (hk : k < s.nbScn)
    (ha : Answers solver s k Cmd.Feasible) : RatiosOk s k (dispatchOf s r k) := by
  obtain rfl := Ready.result hs hr
  exact ((codeFeasible_iff (Built.inv hs.built) hk _ b).mp (Ready.answer hs hk ha)).ratios

/-! ### C22 -/

/-- C22, for studies without link from a node to itself and with at most one storage per node: the
dispatch of the result is feasible for the documented problem and no feasible dispatch costs less.
Missing: the other studies, see `C22_refuted`. -/
theorem C22_least_cost_partial {s : Study} (hs : Ready s) (hself : NoSelfLink s)
    (h1 : OneStorage s) {solver : Solver} {b : Benchmark} {r : Result}
    (hr : solveLp solver b s = .ok r) {k : ℕ} (hk : k < s.nbScn)
    (ha : Answers solver s k Cmd.Optimal) :
    Spec.Feasible s k (dispatchOf s r k) ∧
    ∀ D, Spec.Feasible s k D → cost s k (dispatchOf s r k) ≤ cost s k D := by
  obtain rfl := Ready.result hs hr
  have h := optimal_result (Built.inv hs.built) hk _ b (Ready.answer hs hk ha)
  exact ⟨feasible_of_code hself h1 h.1, fun D hD => h.2 D (code_of_feasible hself hD)⟩

/-- C22, without link from a node to itself but any number of storages: no dispatch feasible for the
documented problem costs less (the result itself may not be feasible). Missing: feasibility. -/
theorem C22_no_cheaper_partial {s : Study} (hs : Ready s) (hself : NoSelfLink s)
    {solver : Solver} {b : Benchmark} {r : Result}
    (hr : solveLp solver b s = .ok r) {k : ℕ} (hk : k < s.nbScn)
    (ha : Answers solver s k Cmd.Optimal) (D : Dispatch) (hD : Spec.Feasible s k D) :
    cost s k (dispatchOf s r k) ≤ cost s k D := by
  obtain rfl := Ready.result hs hr
  exact (optimal_result (Built.inv hs.built) hk _ b (Ready.answer hs hk ha)).2 D
    (code_of_feasible hself hD)

/-- C22, exactly, for every study: an answer respects the problem sent to the solver if and only if the result is a dispatch that the code
allows, and it is optimal if and only if the result costs least among these. -/
theorem C22_exact {s : Study} (hs : Ready s) {solver : Solver} {b : Benchmark} {r : Result}
    (hr : solveLp solver b s = .ok r) {k : ℕ} (hk : k < s.nbScn) :
    (Answers solver s k Cmd.Feasible ↔ CodeFeasible s k (dispatchOf s r k)) ∧
    (Answers solver s k Cmd.Optimal ↔ CodeFeasible s k (dispatchOf s r k) ∧
      ∀ D, CodeFeasible s k D → cost s k (dispatchOf s r k) ≤ cost s k D) := by
  obtain rfl := Ready.result hs hr
  have hi := Built.inv hs.built
  have he : ∀ P : List Cmd → (Var → ℚ) → Prop, Answers solver s k P ↔ P (fullLog s k) (valsOf solver s k) := by
    refine fun P => ⟨Ready.answer hs hk, fun h steps log hb => ?_⟩
    rw [Ready.build hs hk] at hb
    cases hb
    exact h
  rw [he, he]
  refine ⟨codeFeasible_iff hi hk _ b, optimal_result hi hk _ b, fun h => ⟨(codeFeasible_iff hi hk _ b).mpr h.1, fun x hx => ?_⟩⟩
  rw [objective_result hi hk _ b, objective_eq hi k x]
  exact h.2 _ ((feasible_iff hi k x).mp hx)

/-- the objective of the solver is the cost of the dispatch in the result, for every answer -/
theorem C22_objective {s : Study} (hs : Ready s) {solver : Solver} {b : Benchmark} {r : Result}
    (hr : solveLp solver b s = .ok r) {k : ℕ} (hk : k < s.nbScn) {steps : List (LPTimeStep Var)}
    {log : List Cmd} (hl : buildAll s k = .ok (steps, log)) :
    Cmd.objective log (solver log) = cost s k (dispatchOf s r k) := by
  obtain rfl := Ready.result hs hr
  rw [Ready.build hs hk] at hl
  cases hl
  exact objective_result (Built.inv hs.built) hk (valsOf solver s) b

/-! ### C23 -/

/-- C23: with non-negative limits and storages that start within their capacity, the problem sent to
the solver is feasible -/
theorem C23_feasible {s : Study} (hs : Ready s) {k : ℕ} (hk : k < s.nbScn) (hl : LimitsOk s k) :
    ∃ steps log, buildAll s k = .ok (steps, log) ∧ ∃ x, Cmd.Feasible log x := by
  refine ⟨_, _, Ready.build hs hk, toVars (idle s k), ?_⟩
  rw [feasible_iff (Built.inv hs.built), ofVars_toVars]
  exact idle_code (Built.inv hs.built) hl

/-- C23: so is the documented problem -/
theorem C23_documented {s : Study} (hs : Built s) {k : ℕ} (hl : LimitsOk s k) :
    ∃ D, Spec.Feasible s k D := ⟨_, idle_feasible (Built.inv hs) hl⟩

/-! ### C24 -/

/-- C24: a production is not used while a strictly cheaper production of the same node has spare
capacity -/
theorem C24_productions {s : Study} (hs : Ready s) {solver : Solver} {b : Benchmark} {r : Result}
    (hr : solveLp solver b s = .ok r) {k : ℕ} (hk : k < s.nbScn)
    (ha : Answers solver s k Cmd.Optimal) {g d : String} {n : InputNode} (hn : HasNode s g d n)
    {i j : ℕ} {p q : Production} (hp : n.productions[i]? = some p) (hq : n.productions[j]? = some q)
    {t : ℕ} (ht : t < s.horizon) (hc : val p.cost k t < val q.cost k t)
    (hspare : cellAt (outNode r g d).productions i (·.quantity) k t < val p.quantity k t) :
    cellAt (outNode r g d).productions j (·.quantity) k t = 0 := by
  obtain rfl := Ready.result hs hr
  have h := optimal_result (Built.inv hs.built) hk _ b (Ready.answer hs hk ha)
  rcases merit_prod (Built.inv hs.built) h.1 h.2 hn hp hq ht hc with h | h
  · exact h
  · exact absurd h (ne_of_lt hspare)

/-- C24: a consumption is fully served while a production of the same node that costs less than not
serving it has spare capacity -/
theorem C24_consumptions {s : Study} (hs : Ready s) {solver : Solver} {b : Benchmark} {r : Result}
    (hr : solveLp solver b s = .ok r) {k : ℕ} (hk : k < s.nbScn)
    (ha : Answers solver s k Cmd.Optimal) {g d : String} {n : InputNode} (hn : HasNode s g d n)
    {i j : ℕ} {p : Production} {c : Consumption} (hp : n.productions[i]? = some p)
    (hq : n.consumptions[j]? = some c)
    {t : ℕ} (ht : t < s.horizon) (hc : val p.cost k t < val c.cost k t)
    (hspare : cellAt (outNode r g d).productions i (·.quantity) k t < val p.quantity k t) :
    cellAt (outNode r g d).consumptions j (·.quantity) k t = val c.quantity k t := by
  obtain rfl := Ready.result hs hr
  have h := optimal_result (Built.inv hs.built) hk _ b (Ready.answer hs hk ha)
  rcases merit_lol (Built.inv hs.built) h.1 h.2 hn hp hq ht hc with h | h
  · simp only [dispatchOf, inNode_eq (Built.inv hs.built) hn, hq] at h
    linarith
  · exact absurd h (ne_of_lt hspare)

/-! ### C25 -/

/-- C25: two studies with the same elements, where scenario `k` of the first has the data of
scenario `k'` of the second, get the same dispatch for these scenarios, whatever the solver -/
theorem C25_independent {s s' : Study} (hs : Ready s) (hs' : Ready s') {k k' : ℕ}
    (hk : k < s.nbScn) (hk' : k' < s'.nbScn) (hsame : SameScenario s k s' k') {solver : Solver}
    {b b' : Benchmark} {r r' : Result} (hr : solveLp solver b s = .ok r)
    (hr' : solveLp solver b' s' = .ok r') :
    SameFlows s (dispatchOf s r k) (dispatchOf s' r' k') := by
  obtain rfl := Ready.result hs hr
  obtain rfl := Ready.result hs' hr'
  have h1 := agree_result (Built.inv hs.built) (valsOf solver s) b hk
  have h2 := agree_result (Built.inv hs'.built) (valsOf solver s') b' hk'
  have e : valsOf solver s k = valsOf solver s' k' := by
    unfold valsOf; rw [fullLog_same hsame]
  rw [← e] at h2
  exact h1.symm.trans (SameFlows.transport hsame h2)

/-! ### C26 -/

/-- C26: `solve_lp` returns a result with the structure of the study -/
theorem C26_mirrors {s : Study} (hs : Ready s) (solver : Solver) (b : Benchmark) :
    ∃ r, solveLp solver b s = .ok r ∧ Mirrors s r :=
  ⟨_, Ready.solve hs solver b, mirrors_result (Built.inv hs.built) _ _⟩

/-- C26: each cell of the result holds the value of its own variable -/
theorem C26_cells {s : Study} (hs : Ready s) {solver : Solver} {b : Benchmark} {r : Result}
    (hr : solveLp solver b s = .ok r) {k : ℕ} (hk : k < s.nbScn) {steps : List (LPTimeStep Var)}
    {log : List Cmd} (hl : buildAll s k = .ok (steps, log)) :
    SameFlows s (ofVars (solver log)) (dispatchOf s r k) := by
  obtain rfl := Ready.result hs hr
  rw [Ready.build hs hk] at hl
  cases hl
  exact agree_result (Built.inv hs.built) (valsOf solver s) b hk

/-- C16: every result of the optimizer on a study with at least one scenario can be written to JSON
and read back -/
theorem C16_optimizer {s : Study} (hs : Ready s) (hn : 0 < s.nbScn) {solver : Solver}
    {b : Benchmark} {r : Result} (hr : solveLp solver b s = .ok r) :
    (Result.fromJson r.toJson).1 = .ok r := by
  obtain rfl := Ready.result hs hr
  exact Result.roundtrip (resultOk_all hs hn _ b)

/-! ### C27 -/

/-- C27: whatever the size of the chunks and the order in which workers finish, `solve_lp` returns
the same result, or no result -/
theorem C27_schedule (solver : Solver) (b : Benchmark) (s : Study) {size : ℕ} (hs : 0 < size)
    {order : List ℕ} (ho : order.Perm (List.range (Pool.nbChunks size s.nbScn))) :
    (solveLpPool size order solver b s).toOption = (solveLp solver b s).toOption := by
  have ho' : order.Perm (List.range (Pool.nbChunks size (List.range s.nbScn).length)) := by
    simpa using ho
  unfold solveLpPool solveLp
  cases h : (List.range s.nbScn).mapM (solveBatch solver s) with
  | ok l => rw [Pool.map_ok hs ho' h]
  | error e =>
    obtain ⟨e', h', _⟩ := Pool.map_error hs ho' h
    rw [h']; rfl

/-- C27: on a study the optimizer accepts there is always a result -/
theorem C27_result {s : Study} (hs : Ready s) (solver : Solver) (b : Benchmark) {size size' : ℕ}
    (h0 : 0 < size) (h0' : 0 < size') {order order' : List ℕ}
    (ho : order.Perm (List.range (Pool.nbChunks size s.nbScn)))
    (ho' : order'.Perm (List.range (Pool.nbChunks size' s.nbScn))) :
    ∃ r, solveLpPool size order solver b s = .ok r ∧ solveLpPool size' order' solver b s = .ok r := by
  have h1 := C27_schedule solver b s h0 ho
  have h2 := C27_schedule solver b s h0' ho'
  rw [Ready.solve hs] at h1 h2
  refine ⟨resultAll s (valsOf solver s) b, ?_, ?_⟩
  · cases h : solveLpPool size order solver b s with
    | ok r => rw [h] at h1; simpa [Except.toOption] using h1
    | error e => rw [h] at h1; simp [Except.toOption] at h1
  · cases h : solveLpPool size' order' solver b s with
    | ok r => rw [h] at h2; simpa [Except.toOption] using h2
    | error e => rw [h] at h2; simp [Except.toOption] at h2

end Hadar.Props
