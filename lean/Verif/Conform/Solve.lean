import Verif.Conform.Certificate

/-!
# `tests/optimizer/it/test_optimizer.py` on the model

The tests solve studies with the solver of ortools. Here each test passes with any solver whose answers are optimal: the studies have one
optimal dispatch. Multipliers of the constraints (prices of energy at nodes, …) prove it.
-/

namespace Hadar.Conform

open Hadar Hadar.Spec

/-- a nested list given as quantity -/
private def table (l : List (List ℚ)) : Raw := .json (.arr (l.map fun r => .arr (r.map .num)))

/-- a list given as quantity -/
private def row (l : List ℚ) : Raw := .json (.arr (l.map .num))

/-- `np.testing.assert_array_equal` on what the tests write -/
private def cells (l : List (List ℚ)) (a : NdArray) : Bool := decide (a.shape = [l.length, (l.head?.getD []).length]) && decide (a.data = l.flatten)

/-- what the tests expect of a node -/
structure Expected where
  consumptions : List (String × List (List ℚ)) := []
  productions : List (String × List (List ℚ)) := []
  /-- name, capacity, flow in, flow out -/
  storages : List (String × List (List ℚ) × List (List ℚ) × List (List ℚ)) := []
  links : List (String × List (List ℚ)) := []

/-- `assert_result` (tests/utils.py 13-81) on a node: names and arrays, as far as both lists go (`zip`). Simplification: quantities of
storages are compared exactly, not up to 4 decimals. -/
def assertNode (e : Expected) (o : OutputNode) : Bool :=
  (e.consumptions.zip o.consumptions).all (fun p => p.1.1 = p.2.name && cells p.1.2 p.2.quantity) &&
  (e.productions.zip o.productions).all (fun p => p.1.1 = p.2.name && cells p.1.2 p.2.quantity) &&
  (e.storages.zip o.storages).all (fun p => p.1.1 = p.2.name && cells p.1.2.1 p.2.capacity && cells p.1.2.2.1 p.2.flowIn &&
    cells p.1.2.2.2 p.2.flowOut) &&
  (e.links.zip o.links).all (fun p => p.1.1 = p.2.dest && cells p.1.2 p.2.quantity)

/-- `assert_result` (tests/utils.py 13-120) -/
def assertResult (nets : List (String × List (String × Expected)))
    (convs : List (String × List (List String × List (List ℚ)) × List (List ℚ))) (r : Result) : Bool :=
  nets.all (fun p => match r.networks.get? p.1 with
    | none => false
    | some net => p.2.all fun q => match net.nodes.get? q.1 with
      | none => false
      | some o => assertNode q.2 o) &&
  convs.all fun p => match r.converters.get? p.1 with
    | none => false
    | some c => cells p.2.2 c.flowDest && p.2.1.all fun q => match c.flowSrc.get? q.1 with
      | none => false
      | some a => cells q.2 a

/-- the test of a chain passes with any solver whose answers are optimal, and there is one -/
def Passes (h n : ℕ) (ms : List Method) (check : Result → Bool) : Prop :=
  (∃ solver, ∀ k < n, Answers solver (built h n ms) k Cmd.Optimal) ∧
  ∀ solver, (∀ k < n, Answers solver (built h n ms) k Cmd.Optimal) → ∀ b, ∃ r, solveLp solver b (built h n ms) = .ok r ∧ check r = true

/-- what has to be computed: multipliers prove optimal the answer they lead to -/
def Proves (h n : ℕ) (ms : List Method) (check : Result → Bool) (y : ℕ → RowId → ℚ) (m : ℕ) : Prop :=
  ChainReady h n ms ∧ (built h n ms).nbScn = n ∧
  (∀ k < n, Certified (logOf (built h n ms) k) (fun v => ((shared (logOf (built h n ms) k) (y k) m).get? v).getD 0) (y k)) ∧
  AllKnown (built h n ms) (fun k => shared (logOf (built h n ms) k) (y k) m) ∧
  check (resultAll (built h n ms) (known fun k => shared (logOf (built h n ms) k) (y k) m) ⟨[], [], 0, 0⟩) = true

instance (h n : ℕ) (ms : List Method) (check : Result → Bool) (y : ℕ → RowId → ℚ) (m : ℕ) : Decidable (Proves h n ms check y m) := by
  unfold Proves; infer_instance

theorem passes_of {h n : ℕ} {ms : List Method} {check : Result → Bool} (y : ℕ → RowId → ℚ) (m : ℕ) (hp : Proves h n ms check y m)
    (hc : ∀ r b, check { r with benchmark := b } = check r := by intros; rfl) : Passes h n ms check := by
  obtain ⟨h1, h2, h3, h4, h5⟩ := hp
  have h3' : ∀ k < (built h n ms).nbScn, _ := fun k hk => h3 k (h2 ▸ hk)
  refine ⟨?_, fun solver ho b => ?_⟩
  · obtain ⟨solver, hs⟩ := solver_exists h1 _ y h3'
    exact ⟨solver, fun k hk => hs k (h2.symm ▸ hk)⟩
  · have hr := Ready.solve (ready_of_chain h1) solver b
    refine ⟨_, hr, ?_⟩
    rw [solve_chain h1 _ y m h3' h4 hr fun k hk => ho k (h2 ▸ hk)]
    exact (hc _ _).trans h5

/-- prices of energy at the nodes, from a table of the prices of each time step -/
def prices (l : List (String × List ℚ)) : ℕ → RowId → ℚ := fun _ r => match r with
  | .adeq t _ d => (((Dict.get? l d).getD [])[t]?).getD 0
  | _ => 0

-- test_merit_order
example : Passes 3 2 [.network, .node "a", .consumption "load" (cost := .num (10 ^ 6)) (quantity := table [[30, 6, 6], [6, 30, 30]]),
    .production "nuclear" (cost := .num 20) (quantity := table [[15, 3, 3], [3, 15, 15]]),
    .production "solar" (cost := .num 10) (quantity := table [[10, 2, 2], [2, 10, 10]]),
    .production "oil" (cost := .num 30) (quantity := table [[10, 2, 2], [2, 10, 10]])]
    (assertResult [("default", [("a", { consumptions := [("load", [[30, 6, 6], [6, 30, 30]])], productions := [
      ("nuclear", [[15, 3, 3], [3, 15, 15]]), ("solar", [[10, 2, 2], [2, 10, 10]]), ("oil", [[5, 1, 1], [1, 5, 5]])] })])] []) :=
  passes_of (prices [("a", [30, 30, 30])]) 1 (by decide +kernel)

-- test_exchange_two_nodes
example : Passes 2 1 [.network, .node "a", .consumption "load" (cost := .num (10 ^ 6)) (quantity := row [20, 200]),
    .production "prod" (cost := .num 10) (quantity := row [30, 300]),
    .node "b", .consumption "load" (cost := .num (10 ^ 6)) (quantity := row [20, 200]),
    .production "prod" (cost := .num 20) (quantity := row [10, 100]), .link "a" "b" (quantity := row [10, 100]) (cost := .num 2)]
    (assertResult [("default", [
      ("a", { consumptions := [("load", [[20, 200]])], productions := [("prod", [[30, 300]])], links := [("b", [[10, 100]])] }),
      ("b", { consumptions := [("load", [[20, 200]])], productions := [("prod", [[10, 100]])] })])] []) :=
  passes_of (prices [("a", [50, 50]), ("b", [60, 60])]) 1 (by decide +kernel)

-- test_exchange_two_concurrent_nodes
example : Passes 1 1 [.network, .node "a", .consumption "load" (cost := .num (10 ^ 6)) (quantity := .num 10),
    .production "nuclear" (cost := .num 10) (quantity := .num 30),
    .node "b", .consumption "load" (cost := .num (10 ^ 6)) (quantity := .num 10), .production "nuclear" (cost := .num 20) (quantity := .num 10),
    .node "c", .consumption "load" (cost := .num (10 ^ 6)) (quantity := .num 10), .production "nuclear" (cost := .num 20) (quantity := .num 10),
    .link "a" "b" (quantity := .num 20) (cost := .num 2), .link "a" "c" (quantity := .num 20) (cost := .num 2)]
    (assertResult [("default", [
      ("a", { consumptions := [("load", [[10]])], productions := [("nuclear", [[30]])], links := [("b", [[10]]), ("c", [[10]])] }),
      ("b", { consumptions := [("load", [[10]])], productions := [("nuclear", [[0]])] }),
      ("c", { consumptions := [("load", [[10]])], productions := [("nuclear", [[0]])] })])] []) :=
  passes_of (prices [("a", [14]), ("b", [16]), ("c", [16])]) 2 (by decide +kernel)

-- test_exchange_link_saturation
example : Passes 1 1 [.network, .node "a", .production "nuclear" (cost := .num 10) (quantity := row [30]),
    .node "b", .consumption "load" (cost := .num (10 ^ 6)) (quantity := row [10]),
    .node "c", .consumption "load" (cost := .num (10 ^ 6)) (quantity := row [20]),
    .link "a" "b" (quantity := row [20]) (cost := .num 2), .link "b" "c" (quantity := row [15]) (cost := .num 2)]
    (assertResult [("default", [("a", { productions := [("nuclear", [[20]])], links := [("b", [[20]])] }),
      ("b", { consumptions := [("load", [[10]])], links := [("c", [[10]])] }), ("c", { consumptions := [("load", [[10]])] })])] []) :=
  passes_of (prices [("a", [10]), ("b", [10 ^ 6 - 2]), ("c", [10 ^ 6])]) 3 (by decide +kernel)

-- test_consumer_cancel_exchange
example : Passes 1 1 [.network, .node "a", .consumption "load" (cost := .num (10 ^ 6)) (quantity := .num 10),
    .production "nuclear" (cost := .num 10) (quantity := .num 20),
    .node "b", .consumption "load" (cost := .num (10 ^ 6)) (quantity := .num 5), .production "nuclear" (cost := .num 20) (quantity := .num 15),
    .node "c", .consumption "load" (cost := .num (10 ^ 6)) (quantity := .num 20), .production "nuclear" (cost := .num 10) (quantity := .num 10),
    .link "a" "b" (quantity := .num 20) (cost := .num 2), .link "b" "c" (quantity := .num 20) (cost := .num 2)]
    (assertResult [("default", [
      ("a", { consumptions := [("load", [[10]])], productions := [("nuclear", [[20]])], links := [("b", [[10]])] }),
      ("b", { consumptions := [("load", [[5]])], productions := [("nuclear", [[5]])], links := [("c", [[10]])] }),
      ("c", { consumptions := [("load", [[20]])], productions := [("nuclear", [[10]])] })])] []) :=
  passes_of (prices [("a", [18]), ("b", [20]), ("c", [22])]) 3 (by decide +kernel)

-- test_many_links_on_node
example : Passes 2 1 [.network, .node "a", .consumption "load" (cost := .num (10 ^ 6)) (quantity := .num 10),
    .production "gas" (cost := .num 80) (quantity := .num 20),
    .node "b", .consumption "load" (cost := .num (10 ^ 6)) (quantity := row [15, 25]),
    .node "c", .production "nuclear" (cost := .num 50) (quantity := .num 30),
    .link "a" "b" (quantity := .num 20) (cost := .num 10), .link "c" "a" (quantity := .num 20) (cost := .num 10),
    .link "c" "b" (quantity := .num 15) (cost := .num 10)]
    (assertResult [("default", [
      ("a", { consumptions := [("load", [[10, 10]])], productions := [("gas", [[0, 5]])], links := [("b", [[0, 10]])] }),
      ("b", { consumptions := [("load", [[15, 25]])] }), ("c", { productions := [("nuclear", [[25, 30]])] })])] []) :=
  passes_of (prices [("a", [60, 80]), ("b", [65, 90]), ("c", [50, 70])]) 3 (by decide +kernel)

-- test_storage
example : Passes 4 1 [.network, .node "a", .production "nuclear" (cost := .num 20) (quantity := row [10, 10, 10, 0]),
    .node "b", .consumption "load" (cost := .num (10 ^ 6)) (quantity := row [20, 10, 0, 10]),
    .storage "cell" (capacity := .num 30) (flowIn := .num 20) (flowOut := .num 20) (initCapacity := some 15) (eff := some (.num (1 / 2))),
    .link "a" "b" (cost := .num 1) (quantity := .num 10)]
    (assertResult [("default", [("a", { productions := [("nuclear", [[10, 10, 10, 0]])], links := [("b", [[10, 10, 10, 0]])] }),
      ("b", { consumptions := [("load", [[20, 10, 0, 10]])],
              storages := [("cell", [[5, 5, 10, 0]], [[0, 0, 10, 0]], [[10, 0, 0, 10]])] })])] []) :=
  passes_of (fun _ r => match r with
    | .adeq t _ "a" => if t = 3 then 300 else 100
    | .adeq t _ _ => if t = 2 then 150 else 300
    | .stor .. => -300
    | .mix .. => 0) 8 (by decide +kernel)

-- test_multi_energies
example : Passes 1 1 [.network (some "elec"), .node "a", .consumption "load" (cost := .num (10 ^ 6)) (quantity := .num 10),
    .network (some "gas"), .node "b", .production "central" (cost := .num 10) (quantity := .num 50), .toConverter "conv" (some (.num (8 / 10))),
    .network (some "coat"), .node "c", .production "central" (cost := .num 10) (quantity := .num 50), .toConverter "conv" (some (.num (1 / 2))),
    .converter "conv" "elec" "a" (max := .num 50)]
    (assertResult [("elec", [("a", { consumptions := [("load", [[10]])] })]), ("gas", [("b", { productions := [("central", [[25 / 2]])] })]),
      ("coat", [("c", { productions := [("central", [[20]])] })])]
      [("conv", [(["gas", "b"], [[25 / 2]]), (["coat", "c"], [[20]])], [[10]])]) :=
  passes_of (fun _ r => match r with
    | .adeq _ "elec" _ => 10 / (8 / 10) + 20
    | .adeq .. => 10
    | .mix _ _ ["gas", "b"] => 10 / (8 / 10)
    | .mix .. => 20
    | .stor .. => 0) 4 (by decide +kernel)

end Hadar.Conform
