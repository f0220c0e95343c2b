import Verif.Conform.Solve
import Verif.Model.Analyzer

/-!
# `tests/analyzer/test_result.py` on the model

Tables are allocated with NaN (`noise`); that their first content does not matter is proved in `Verif/Props/Tables.lean`.
-/

namespace Hadar.Conform

open Hadar

/-- content of the arrays allocated by `np.empty` -/
private def noise : Junk := fun _ _ _ => .nan

private def grid (l : List (List ℚ)) : Raw := .json (.arr (l.map fun r => .arr (r.map .num)))

/-- an array of 2 scenarios and 3 time steps -/
private def out (a b c d e f : ℚ) : NdArray := ⟨[2, 3], [a, b, c, d, e, f], rfl⟩

private def numsOf (l : List ℚ) : List Cell := l.map .num

private def same (n : ℕ) (c : Cell) : List Cell := List.replicate n c

/-- `pd.testing.assert_frame_equal` for a table: same columns in the same order, same values -/
private def frameIs (cols : List (String × List Cell)) : Except PyErr Frame → Bool
  | .error _ => false
  | .ok f => decide (f.names.map Prod.fst = cols.map Prod.fst) &&
    cols.all fun c => decide ((List.range f.size).map (f.cell c.1) = c.2)

/-- `pd.testing.assert_frame_equal` for the answer to a query: names of the levels, then of the columns; lines -/
private def answerIs (levels cols : List String) (lines : List (List Cell × List ℚ)) : Except PyErr Reply → Bool
  | .ok (.table (some pt)) => decide (pt.levels = levels) &&
    decide (pt.lines = lines.map fun l => (l.1, cols.zip (l.2.map .num)))
  | _ => false

/-- a test on `ResultAnalyzer(study, result)` -/
private def analyzed (s : Study) (r : Result) (test : Analyzer → Bool) : Bool :=
  match Analyzer.init noise s r with
  | .ok a => test a
  | .error _ => false

/-- the default name of `network()` (result.py 541) -/
private def dflt : IndexArg := .one (.str "default")

private def t012 (n : ℕ) : List Cell := (List.replicate n [Cell.num 0, .num 1, .num 2]).flatten
private def s012 (n : ℕ) : List Cell := (List.replicate n [Cell.num 0, .num 0, .num 0, .num 1, .num 1, .num 1]).flatten

private def bench : Benchmark := ⟨[], [], 0, 0⟩

/-! ### `TestIndex`, `TestIntIndex` -/

-- test_no_parameters, test_on_element, test_list
example : Index.make .node .none = .ok ⟨.node, true, []⟩ := by decide +kernel
example : Index.make .node (.one (.str "fr")) = .ok ⟨.node, false, [.str "fr"]⟩ := by decide +kernel
example : Index.make .node (.list [.str "fr", .str "be"]) = .ok ⟨.node, false, [.str "fr", .str "be"]⟩ := by decide +kernel
-- test_filter
example : (["it", "fr", "fr", "be", "de", "it", "be"].map fun c => Index.keeps ⟨.node, false, [.str "fr", .str "be"]⟩ (.str c)) =
    [false, true, true, true, false, false, true] := by decide +kernel
-- test_range, test_list
example : Index.make .time (.slice (some 2) (some 6) none) = .ok ⟨.time, false, numsOf [2, 3, 4, 5]⟩ := by decide +kernel
example : Index.make .time (.list [.num 2, .num 6]) = .ok ⟨.time, false, numsOf [2, 6]⟩ := by decide +kernel

/-! ### `TestConsumptionAnalyzer` -/

def loadStudy : Study := built 3 2 [.network, .node "a",
  .consumption "load" (cost := .num (10 ^ 3)) (quantity := grid [[120, 12, 12], [12, 120, 120]]),
  .consumption "car" (cost := .num (10 ^ 3)) (quantity := grid [[130, 13, 13], [13, 130, 130]]),
  .node "b", .consumption "load" (cost := .num (10 ^ 3)) (quantity := grid [[120, 12, 12], [12, 120, 120]])]

def loadResult : Result := ⟨[("default", ⟨[
  ("a", ⟨[⟨out 20 2 2 2 20 20, "load"⟩, ⟨out 30 3 3 3 30 30, "car"⟩], [], [], []⟩),
  ("b", ⟨[⟨out 20 2 2 2 20 20, "load"⟩], [], [], []⟩)]⟩)], [], bench⟩

-- test_build_consumption
example : frameIs [("cost", same 18 (.num (10 ^ 3))),
    ("asked", numsOf [120, 12, 12, 12, 120, 120, 130, 13, 13, 13, 130, 130, 120, 12, 12, 12, 120, 120]),
    ("given", numsOf [20, 2, 2, 2, 20, 20, 30, 3, 3, 3, 30, 30, 20, 2, 2, 2, 20, 20]),
    ("name", same 6 (.str "load") ++ same 6 (.str "car") ++ same 6 (.str "load")),
    ("node", same 12 (.str "a") ++ same 6 (.str "b")), ("network", same 18 (.str "default")), ("t", t012 6), ("scn", s012 3)]
    (Tables.consumption noise loadStudy loadResult) = true := by decide +kernel

-- test_aggregate_cons
example : analyzed loadStudy loadResult (fun a => answerIs ["t"] ["asked", "cost", "given"]
    [([.num 0], [120, 1000, 20]), ([.num 1], [12, 1000, 2]), ([.num 2], [12, 1000, 2])]
    (a.ask dflt [(.scn, .one (.num 0)), (.node, .one (.str "a")), (.cons, .one (.str "load")), (.time, .none)])) = true := by
  decide +kernel

-- test_get_elements_inside
example : analyzed loadStudy loadResult (fun a => decide (a.elementsInside (some "a") none = .ok [2, 0, 0, 0, 0, 0]) &&
    decide (a.elementsInside (some "b") none = .ok [1, 0, 0, 0, 0, 0])) = true := by decide +kernel

/-! ### `TestProductionAnalyzer` -/

def plantStudy : Study := built 3 2 [.network, .node "a",
  .production "prod" (cost := .num 10) (quantity := grid [[130, 13, 13], [13, 130, 130]]),
  .node "b", .production "prod" (cost := .num 20) (quantity := grid [[110, 11, 11], [11, 110, 110]]),
  .production "nuclear" (cost := .num 20) (quantity := grid [[120, 12, 12], [12, 120, 120]])]

def plantResult : Result := ⟨[("default", ⟨[
  ("a", ⟨[], [⟨"prod", out 30 3 3 3 30 30⟩], [], []⟩),
  ("b", ⟨[], [⟨"prod", out 10 1 1 1 10 10⟩, ⟨"nuclear", out 20 2 2 2 20 20⟩], [], []⟩)]⟩)], [], bench⟩

-- test_build_production
example : frameIs [("cost", same 6 (.num 10) ++ same 12 (.num 20)),
    ("avail", numsOf [130, 13, 13, 13, 130, 130, 110, 11, 11, 11, 110, 110, 120, 12, 12, 12, 120, 120]),
    ("used", numsOf [30, 3, 3, 3, 30, 30, 10, 1, 1, 1, 10, 10, 20, 2, 2, 2, 20, 20]),
    ("name", same 12 (.str "prod") ++ same 6 (.str "nuclear")),
    ("node", same 6 (.str "a") ++ same 12 (.str "b")), ("network", same 18 (.str "default")), ("t", t012 6), ("scn", s012 3)]
    (Tables.production noise plantStudy plantResult) = true := by decide +kernel

-- test_aggregate_prod
example : analyzed plantStudy plantResult (fun a => answerIs ["node", "name", "t"] ["avail", "cost", "used"]
    [([.str "a", .str "prod", .num 0], [130, 10, 30]), ([.str "a", .str "prod", .num 1], [13, 10, 3]),
     ([.str "a", .str "prod", .num 2], [13, 10, 3]), ([.str "b", .str "prod", .num 0], [110, 20, 10]),
     ([.str "b", .str "prod", .num 1], [11, 20, 1]), ([.str "b", .str "prod", .num 2], [11, 20, 1])]
    (a.ask dflt [(.scn, .one (.num 0)), (.node, .list [.str "a", .str "b"]), (.prod, .one (.str "prod")), (.time, .none)])) = true := by
  decide +kernel

-- test_get_elements_inside
example : analyzed plantStudy plantResult (fun a => decide (a.elementsInside (some "a") none = .ok [0, 1, 0, 0, 0, 0]) &&
    decide (a.elementsInside (some "b") none = .ok [0, 2, 0, 0, 0, 0])) = true := by decide +kernel

/-! ### `TestStorageAnalyzer` -/

def storeStudy : Study := built 3 2 [.network, .node "b",
  .storage "store" (capacity := .num 100) (flowIn := .num 10) (flowOut := .num 20) (cost := some (.num 1))]

def storeResult : Result := ⟨[("default", ⟨[("b", ⟨[], [],
  [⟨"store", out 10 1 1 1 10 10, out 30 3 3 3 30 30, out 20 2 2 2 20 20⟩], []⟩)]⟩)], [], bench⟩

-- test_build_storage
example : frameIs [("max_capacity", same 6 (.num 100)), ("capacity", numsOf [10, 1, 1, 1, 10, 10]),
    ("max_flow_in", same 6 (.num 10)), ("flow_in", numsOf [30, 3, 3, 3, 30, 30]),
    ("max_flow_out", same 6 (.num 20)), ("flow_out", numsOf [20, 2, 2, 2, 20, 20]),
    ("cost", same 6 (.num 1)), ("init_capacity", same 6 (.num 0)), ("eff", same 6 (.num (99 / 100))),
    ("name", same 6 (.str "store")), ("node", same 6 (.str "b")), ("network", same 6 (.str "default")), ("t", t012 2), ("scn", s012 1)]
    (Tables.storage noise storeStudy storeResult) = true := by decide +kernel

-- test_aggregate_stor
example : analyzed storeStudy storeResult (fun a => answerIs ["node", "name", "t"]
    ["capacity", "cost", "eff", "flow_in", "flow_out", "init_capacity", "max_capacity", "max_flow_in", "max_flow_out"]
    [([.str "b", .str "store", .num 0], [10, 1, 99 / 100, 30, 20, 0, 100, 10, 20]),
     ([.str "b", .str "store", .num 1], [1, 1, 99 / 100, 3, 2, 0, 100, 10, 20]),
     ([.str "b", .str "store", .num 2], [1, 1, 99 / 100, 3, 2, 0, 100, 10, 20])]
    (a.ask dflt [(.scn, .one (.num 0)), (.node, .none), (.stor, .one (.str "store")), (.time, .none)])) = true := by decide +kernel

-- test_get_elements_inside
example : analyzed storeStudy storeResult (fun a => decide (a.elementsInside (some "b") none = .ok [0, 0, 1, 0, 0, 0])) = true := by
  decide +kernel

/-! ### `TestLinkAnalyzer` -/

def wireStudy : Study := built 3 2 [.network, .node "a", .node "b", .node "c",
  .link "a" "b" (quantity := grid [[110, 11, 11], [11, 110, 110]]) (cost := .num 2),
  .link "a" "c" (quantity := grid [[120, 12, 12], [12, 120, 120]]) (cost := .num 2)]

def wireResult : Result := ⟨[("default", ⟨[
  ("a", ⟨[], [], [], [⟨"b", out 10 1 1 1 10 10⟩, ⟨"c", out 20 2 2 2 20 20⟩]⟩), ("b", ⟨[], [], [], []⟩), ("c", ⟨[], [], [], []⟩)]⟩)],
  [], bench⟩

-- test_build_link
example : frameIs [("cost", same 12 (.num 2)), ("avail", numsOf [110, 11, 11, 11, 110, 110, 120, 12, 12, 12, 120, 120]),
    ("used", numsOf [10, 1, 1, 1, 10, 10, 20, 2, 2, 2, 20, 20]), ("node", same 12 (.str "a")),
    ("dest", same 6 (.str "b") ++ same 6 (.str "c")), ("network", same 12 (.str "default")), ("t", t012 4), ("scn", s012 2)]
    (Tables.link noise wireStudy wireResult) = true := by decide +kernel

-- test_aggregate_link
example : analyzed wireStudy wireResult (fun a => answerIs ["dest", "t"] ["avail", "cost", "used"]
    [([.str "b", .num 0], [110, 2, 10]), ([.str "b", .num 1], [11, 2, 1]), ([.str "b", .num 2], [11, 2, 1]),
     ([.str "c", .num 0], [120, 2, 20]), ([.str "c", .num 1], [12, 2, 2]), ([.str "c", .num 2], [12, 2, 2])]
    (a.ask dflt [(.scn, .one (.num 0)), (.node, .one (.str "a")), (.link, .list [.str "b", .str "c"]), (.time, .none)])) = true := by
  decide +kernel

-- test_balance
example : analyzed wireStudy wireResult (fun a => decide (a.getBalance "a" "default" = .ok (out 30 3 3 3 30 30)) &&
    decide (a.getBalance "b" "default" = .ok (out (-10) (-1) (-1) (-1) (-10) (-10)))) = true := by decide +kernel

-- test_get_elements_inside
example : analyzed wireStudy wireResult (fun a => decide (a.elementsInside (some "a") none = .ok [0, 0, 0, 2, 0, 0])) = true := by
  decide +kernel

/-! ### `TestConverterAnalyzer` -/

def mixStudy : Study := built 3 2 [.network, .node "a", .toConverter "conv" (some (.num 2)), .network (some "elec"), .node "a",
  .converter "conv" "elec" "a" (max := .num 10) (cost := some (.num 1))]

def mixResult : Result := ⟨[("default", ⟨[("a", ⟨[], [], [], []⟩)]⟩), ("elec", ⟨[("a", ⟨[], [], [], []⟩)]⟩)],
  [("conv", ⟨"conv", [(["default", "a"], out 10 1 1 1 10 10)], out 20 2 2 2 20 20⟩)], bench⟩

-- test_build_dest_converter
example : frameIs [("name", same 6 (.str "conv")), ("network", same 6 (.str "elec")), ("node", same 6 (.str "a")),
    ("flow", numsOf [20, 2, 2, 2, 20, 20]), ("cost", same 6 (.num 1)), ("max", same 6 (.num 10)), ("t", t012 2), ("scn", s012 1)]
    (Tables.destConverter noise mixStudy mixResult) = true := by decide +kernel

-- test_build_src_converter
example : frameIs [("name", same 6 (.str "conv")), ("network", same 6 (.str "default")), ("node", same 6 (.str "a")),
    ("ratio", same 6 (.num 2)), ("flow", numsOf [10, 1, 1, 1, 10, 10]), ("max", same 6 (.num 5)), ("t", t012 2), ("scn", s012 1)]
    (Tables.srcConverter noise mixStudy mixResult) = true := by decide +kernel

-- test_aggregate_to_conv
example : analyzed mixStudy mixResult (fun a => answerIs ["t"] ["flow", "max", "ratio"]
    [([.num 0], [10, 5, 2]), ([.num 1], [1, 5, 2]), ([.num 2], [1, 5, 2])]
    (a.ask dflt [(.scn, .one (.num 0)), (.node, .one (.str "a")), (.srcConv, .one (.str "conv")), (.time, .none)])) = true := by
  decide +kernel

-- test_aggregate_from_conv
example : analyzed mixStudy mixResult (fun a => answerIs ["t"] ["cost", "flow", "max"]
    [([.num 0], [1, 20, 10]), ([.num 1], [1, 2, 10]), ([.num 2], [1, 2, 10])]
    (a.ask (.one (.str "elec")) [(.scn, .one (.num 0)), (.node, .one (.str "a")), (.destConv, .one (.str "conv")), (.time, .none)])) =
    true := by decide +kernel

-- test_get_elements_inside
example : analyzed mixStudy mixResult (fun a => decide (a.elementsInside (some "a") none = .ok [0, 0, 0, 0, 1, 0]) &&
    decide (a.elementsInside (some "a") (some "elec") = .ok [0, 0, 0, 0, 0, 1])) = true := by decide +kernel

/-! ### `TestAnalyzer` -/

def wholeChain : List Method := [.network, .node "a", .consumption "car" (cost := .num (10 ^ 3)) (quantity := .num 100),
  .production "prod" (cost := .num 10) (quantity := .num 70),
  .node "b", .production "nuclear" (cost := .num 20) (quantity := .num 70),
  .storage "store" (capacity := .num 100) (flowIn := .num 10) (flowOut := .num 20) (cost := some (.num (-1))),
  .toConverter "conv" (some (.num 2)), .link "b" "a" (quantity := .num 110) (cost := .num 2),
  .network (some "elec"), .node "a", .consumption "load" (cost := .num (10 ^ 3)) (quantity := .num 20),
  .converter "conv" "elec" "a" (max := .num 10) (cost := some (.num 1))]

/-- prices of the nodes: enough to know what all optimal answers are -/
private def wholePrices : ℕ → RowId → ℚ := fun _ r => match r with
  | .adeq _ "elec" _ => 1000
  | .adeq _ _ "a" => 22
  | .adeq .. => 20
  | .mix .. => 10
  | .stor .. => -20

/-- an array of one value -/
private def single (q : ℚ) : NdArray := ⟨[1, 1], [q], rfl⟩

-- test_cost, test_rac
example : Passes 1 1 wholeChain (fun r => analyzed (built 1 1 wholeChain) ⟨r.networks, r.converters, bench⟩ fun a =>
    decide (a.getCost (some "a") none = .ok (single 700)) && decide (a.getCost (some "b") none = .ok (single 760)) &&
    decide (a.getCost (some "a") (some "elec") = .ok (single 10010)) &&
    decide (a.getRac "default" = .ok (single 35)) && decide (a.getRac "elec" = .ok (single (-10)))) :=
  passes_of wholePrices 4 (by decide +kernel)

end Hadar.Conform
