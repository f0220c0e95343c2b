import Verif.Conform.Solve
import Verif.Model.Viewer

/-!
# `tests/viewer/test_html.py` on the model

The tests compare hashes of figures, which the model cannot: what is checked is that the figures of the tests are drawn, none of them
raises.
-/

namespace Hadar.Conform

open Hadar Viewer

private def noise : Junk := fun _ _ _ => .nan

private def grid (l : List (List ℚ)) : Raw := .json (.arr (l.map fun r => .arr (r.map .num)))
private def line (l : List ℚ) : Raw := .json (.arr (l.map .num))

/-- a test on `HTMLPlotting(ResultAnalyzer(study, result))` -/
private def plotted (s : Study) (test : Analyzer → Bool) (r : Result) : Bool :=
  match Analyzer.init noise s ⟨r.networks, r.converters, ⟨[], [], 0, 0⟩⟩ with
  | .ok a => test a
  | .error _ => false

/-- the figure is drawn -/
private def drawn {α : Type} : Except PyErr α → Bool
  | .ok _ => true
  | .error _ => false

/-- by decreasing values -/
private def highest : SortValues := fun f l => l.insertionSort fun a b => f b ≤ f a

/-! ### `setUp`, `test_network`, `test_node`, `test_consumption`, `test_production`, `test_link` -/

def plotChain : List Method := [.network, .node "a",
  .consumption "load" (cost := .num (10 ^ 6)) (quantity := grid [[20, 10, 2], [10, 5, 3]]),
  .consumption "car" (cost := .num (10 ^ 6)) (quantity := grid [[30, 15, 3], [15, 7, 2]]),
  .production "prod" (cost := .num 10) (quantity := grid [[60, 30, 5], [30, 15, 3]]),
  .node "b", .consumption "load" (cost := .num (10 ^ 6)) (quantity := grid [[40, 20, 2], [20, 10, 1]]),
  .production "prod" (cost := .num 20) (quantity := grid [[10, 5, 1], [5, 3, 1]]),
  .production "nuclear" (cost := .num 30) (quantity := grid [[20, 10, 2], [10, 5, 1]]),
  .link "a" "b" (quantity := grid [[10, 10, 10], [5, 5, 5]]) (cost := .num 2)]

/-- prices of energy -/
private def plotPrices : ℕ → RowId → ℚ := fun k r => match k, r with
  | 0, .adeq 0 _ "a" => 11
  | 0, .adeq 0 _ _ => 31
  | 0, .adeq 1 _ "a" => 30
  | 0, .adeq 1 _ _ => 32
  | 0, .adeq _ _ "a" => 29
  | 0, .adeq .. => 30
  | _, .adeq 0 _ "a" => 11
  | _, .adeq 0 _ _ => 31
  | _, .adeq 1 _ "a" => 28
  | _, .adeq 1 _ _ => 30
  | _, .adeq _ _ "a" => 10 ^ 6
  | _, .adeq .. => 25
  | _, _ => 0

/-- `node_coord` -/
private def coords : Option (Dict String (ℚ × ℚ)) := some [("a", (233 / 100, 4886 / 100)), ("b", (438 / 100, 5083 / 100))]

private def loads : Item := ⟨"default", "a", .cons, "load", "given"⟩
private def nuclear : Item := ⟨"default", "b", .prod, "nuclear", "used"⟩
private def exports : Item := ⟨"default", "a", .link, "b", "used"⟩

/-- the figures of the tests -/
private def plotFigures (a : Analyzer) : Bool :=
  drawn (map a coords "default" 0 0 none) && drawn (racMatrix a "default") && drawn (stack a highest "default" "a" 0 "used" "asked") &&
  drawn (loads.timeline a) && drawn (loads.monotone a none (some 0)) && drawn (loads.gaussian a none (some 0)) &&
  drawn (nuclear.timeline a) && drawn (nuclear.monotone a (some 0) none) && drawn (nuclear.gaussian a (some 0) none) &&
  drawn (exports.timeline a) && drawn (exports.monotone a none (some 0)) && drawn (exports.gaussian a none (some 0))

/-- An optimal answer. At the last time step of the second scenario 2 units are missing at `a`, where `load` and `car` have the same cost:
`q` units of `load` are not served and `2 - q` units of `car`. -/
private def plotAnswer (q : ℚ) : Vals := fun k v =>
  if k = 1 ∧ v = .lol 2 "default" "a" 0 then q else if k = 1 ∧ v = .lol 2 "default" "a" 1 then 2 - q
  else ((shared (logOf (built 3 2 plotChain) k) (plotPrices k) 5).get? v).getD 0

-- the study has several optimal answers: the figures are drawn for the two extreme ones
example : ∀ q ∈ [0, 2], (∀ k < 2, Certified (logOf (built 3 2 plotChain) k) (plotAnswer q k) (plotPrices k)) ∧
    plotted (built 3 2 plotChain) plotFigures (resultAll (built 3 2 plotChain) (plotAnswer q) ⟨[], [], 0, 0⟩) = true := by decide +kernel

/-! ### `test_storage` -/

def cellChain : List Method := [.network, .node "a", .production "nuclear" (cost := .num 20) (quantity := line [10, 10, 10, 0]),
  .node "b", .consumption "load" (cost := .num (10 ^ 6)) (quantity := line [20, 10, 0, 10]),
  .storage "cell" (capacity := .num 30) (flowIn := .num 10) (flowOut := .num 10) (initCapacity := some 15) (eff := some (.num (1 / 2))),
  .link "a" "b" (cost := .num 1) (quantity := .num 10)]

private def cell : Item := ⟨"default", "b", .stor, "cell", ""⟩

example : Passes 4 1 cellChain (plotted (built 4 1 cellChain) fun a =>
    drawn (stack a highest "default" "b" 0 "used" "asked") && drawn (candles a "default" "b" "cell" 0) && drawn (cell.monotone a none (some 0))) :=
  passes_of (fun _ r => match r with
    | .adeq t _ "a" => if t = 3 then 300 else 100
    | .adeq t _ _ => if t = 2 then 150 else 300
    | .stor .. => -300
    | .mix .. => 0) 8 (by decide +kernel)

/-! ### `test_converter` -/

def mixChain : List Method := [.network (some "elec"), .node "a", .consumption "load" (cost := .num (10 ^ 6)) (quantity := line [10, 30]),
  .network (some "gas"), .node "b", .production "central" (cost := .num 10) (quantity := .num 50), .toConverter "conv" (some (.num (8 / 10))),
  .network (some "coat"), .node "c", .production "central" (cost := .num 10) (quantity := .num 60), .toConverter "conv" (some (.num (1 / 2))),
  .converter "conv" "elec" "a" (max := .num 50)]

private def arrives : Item := ⟨"elec", "a", .destConv, "conv", "flow"⟩
private def departs : Item := ⟨"gas", "b", .srcConv, "conv", "flow"⟩

example : Passes 2 1 mixChain (plotted (built 2 1 mixChain) fun a =>
    drawn (stack a highest "elec" "a" 0 "used" "asked") && drawn (stack a highest "gas" "b" 0 "used" "asked") &&
    drawn (arrives.timeline a) && drawn (departs.timeline a) && drawn (departs.monotone a none (some 0)) &&
    drawn (arrives.gaussianConverter a none (some 0))) :=
  passes_of (fun _ r => match r with
    | .adeq _ "elec" _ => 10 / (8 / 10) + 20
    | .adeq .. => 10
    | .mix _ _ ["gas", "b"] => 10 / (8 / 10)
    | .mix .. => 20
    | .stor .. => 0) 4 (by decide +kernel)

end Hadar.Conform
