import Verif.Conform.Solve
import Verif.Model.Titles
import Verif.Model.Marks

/-!
# Figures of the documentation on the model

`/repo/docs/source/examples` holds programs with the figures they drew when they were run. Here the model draws the same figures, with
any solver whose answers are optimal. Numbers that the solver or numpy rounded are compared exactly: the examples chosen have none.
-/

namespace Hadar.Conform

open Hadar Viewer

private def noise : Junk := fun _ _ _ => .nan

private def line (l : List ℚ) : Raw := .json (.arr (l.map .num))

/-- `np.arange(30)` -/
private def arange : List ℚ := (List.range 30).map fun i => (i : ℚ)

/-- by decreasing values -/
private def highest : SortValues := fun f l => l.insertionSort fun a b => f b ≤ f a

/-- a test on `HTMLPlotting(ResultAnalyzer(study, result))` -/
private def plotted (s : Study) (test : Analyzer → Bool) (r : Result) : Bool :=
  match Analyzer.init noise s ⟨r.networks, r.converters, ⟨[], [], 0, 0⟩⟩ with
  | .ok a => test a
  | .error _ => false

/-- `plot.network().node(node).stack(scn=0, cons_kind=…)` draws these areas, then these lines -/
private def stacked (a : Analyzer) (node consKind : String) (areas lines : List (String × List ℚ)) : Bool :=
  decide (stack a highest "default" node 0 "used" consKind =
    .ok ⟨areas.map fun p => (.str p.1, p.2), lines.map fun p => (.str p.1, p.2)⟩)

/-- `plot.network().map(t, zoom)` draws these arrows, with these nodes -/
private def mapped (a : Analyzer) (coord : Dict String (ℚ × ℚ)) (t : ℤ) (zoom : ℚ) (arrows : List Arrow) (nodes : List ((ℚ × ℚ) × ℚ)) : Bool :=
  match mapWith (mapDrawing (some coord) zoom) a "default" t 0 none with
  | .ok m => decide (m.arrows = arrows) && decide (m.nodes = nodes)
  | .error _ => false

/-! ### `docs/source/examples/Get Started` -/

def getStarted : List Method := [.network, .node "a",
  .consumption "load" (cost := .num (10 ^ 6)) (quantity := line [20, 20, 20]), .production "prod" (cost := .num 10) (quantity := line [30, 20, 10]),
  .node "b",
  .consumption "load" (cost := .num (10 ^ 6)) (quantity := line [20, 20, 20]), .production "prod" (cost := .num 10) (quantity := line [10, 20, 30]),
  .link "a" "b" (quantity := line [10, 10, 10]) (cost := .num 2), .link "b" "a" (quantity := line [10, 10, 10]) (cost := .num 2)]

private def twoPlaces : Dict String (ℚ × ℚ) := [("a", (233 / 100, 4886 / 100)), ("b", (438 / 100, 5083 / 100))]

example : Passes 3 1 getStarted (plotted (built 3 1 getStarted) fun a =>
    stacked a "a" "asked" [("prod", [30, 20, 10]), ("import", [30, 20, 20])] [("export", [30, 20, 20]), ("load", [20, 20, 20])] &&
    stacked a "b" "asked" [("prod", [10, 20, 30]), ("import", [20, 20, 30])] [("export", [20, 20, 30]), ("load", [20, 20, 20])] &&
    mapped a twoPlaces 0 (5 / 2)
      [⟨(233 / 100, 4886 / 100), (438 / 100, 5083 / 100), (4175 / 1000, 50633 / 1000), (3773 / 1000, 50641 / 1000), (4167 / 1000, 50231 / 1000),
        10, .num 1⟩]
      [((233 / 100, 4886 / 100), 10), ((438 / 100, 5083 / 100), -10)] &&
    mapped a twoPlaces 2 (5 / 2)
      [⟨(438 / 100, 5083 / 100), (233 / 100, 4886 / 100), (2535 / 1000, 49057 / 1000), (2937 / 1000, 49049 / 1000), (2543 / 1000, 49459 / 1000),
        10, .num 1⟩]
      [((233 / 100, 4886 / 100), -10), ((438 / 100, 5083 / 100), 10)]) :=
  passes_of (prices [("a", [11, 11, 13]), ("b", [13, 11, 11])]) 3 (by decide +kernel)

/-! ### `docs/source/examples/Cost and Prioritization` -/

def merit : List Method := [.network, .node "a",
  .consumption "load" (cost := .num (10 ^ 6)) (quantity := line arange), .production "solar" (cost := .num 10) (quantity := .num 10),
  .production "nuclear" (cost := .num 100) (quantity := .num 10), .production "oil" (cost := .num 1000) (quantity := .num 10)]

private def meritPrices : ℕ → RowId → ℚ :=
  prices [("a", [5] ++ List.replicate 9 10 ++ [50] ++ List.replicate 9 100 ++ [500] ++ List.replicate 9 1000)]

set_option maxHeartbeats 4000000 in
example : Passes 30 1 merit (plotted (built 30 1 merit) fun a =>
    stacked a "a" "asked"
      [("oil", List.replicate 21 0 ++ [1, 2, 3, 4, 5, 6, 7, 8, 9]),
       ("nuclear", List.replicate 11 0 ++ [1, 2, 3, 4, 5, 6, 7, 8, 9, 10, 11, 12, 13, 14, 15, 16, 17, 18, 19]), ("solar", arange)]
      [("load", arange)]) :=
  passes_of meritPrices 1 (by decide +kernel)

def shedding : List Method := [.network, .node "a",
  .consumption "load" (cost := .num (10 ^ 6)) (quantity := .num 10), .consumption "car" (cost := .num (10 ^ 4)) (quantity := .num 10),
  .consumption "bitcoin" (cost := .num (10 ^ 3)) (quantity := .num 10), .production "hydrogen" (cost := .num 10) (quantity := line arange)]

private def sheddingPrices : ℕ → RowId → ℚ :=
  prices [("a", List.replicate 10 (10 ^ 6) ++ [5 * 10 ^ 5] ++ List.replicate 9 (10 ^ 4) ++ [5000] ++ List.replicate 9 1000)]

set_option maxHeartbeats 4000000 in
example : Passes 30 1 shedding (plotted (built 30 1 shedding) fun a =>
    stacked a "a" "given" [("hydrogen", arange)]
      [("bitcoin", arange), ("car", [0, 1, 2, 3, 4, 5, 6, 7, 8, 9, 10, 11, 12, 13, 14, 15, 16, 17, 18, 19] ++ List.replicate 10 20),
       ("load", [0, 1, 2, 3, 4, 5, 6, 7, 8, 9] ++ List.replicate 20 10)]) :=
  passes_of sheddingPrices 1 (by decide +kernel)

def threeNodes : List Method := [.network, .node "be", .production "eolien" (cost := .num 100) (quantity := line [10, 20]),
  .node "fr", .consumption "load" (cost := .num (10 ^ 6)) (quantity := .num 10),
  .node "uk", .consumption "load" (cost := .num (10 ^ 6)) (quantity := .num 10),
  .link "be" "fr" (cost := .num 10) (quantity := .num 10), .link "be" "uk" (cost := .num 50) (quantity := .num 10)]

private def fr : ℚ × ℚ := (233 / 100, 4886 / 100)
private def be : ℚ × ℚ := (438 / 100, 5083 / 100)
private def uk : ℚ × ℚ := (0, 52)

/-- the arrows of the maps -/
private def toFr (qt shade : ℚ) : Arrow :=
  ⟨be, fr, (2535 / 1000, 49057 / 1000), (2937 / 1000, 49049 / 1000), (2543 / 1000, 49459 / 1000), qt, .num shade⟩
private def toUk (qt shade : ℚ) : Arrow :=
  ⟨be, uk, (438 / 1000, 51883 / 1000), (759 / 1000, 51328 / 1000), (993 / 1000, 52204 / 1000), qt, .num shade⟩

example : Passes 2 1 threeNodes (plotted (built 2 1 threeNodes) fun a =>
    mapped a [("fr", fr), ("be", be), ("uk", uk)] 0 (27 / 10) [toFr 10 1, toUk 0 (1 / 2)] [(be, 10), (fr, -10), (uk, 0)] &&
    mapped a [("fr", fr), ("be", be), ("uk", uk)] 1 (27 / 10) [toFr 10 (3 / 4), toUk 10 (3 / 4)] [(be, 20), (fr, -10), (uk, -10)]) :=
  passes_of (prices [("be", [999950, 200]), ("fr", [999960, 300]), ("uk", [10 ^ 6, 300])]) 3 (by decide +kernel)

/-! ### Titles -/

example (a : Analyzer) : (Chart.map "default" 2 0).title a = .ok "Exchange map at t=2 scn=0" := by rfl

example (a : Analyzer) : (Chart.stack "default" "b" 0 "used" "asked").title a = .ok "Stack for node b" := by rfl

example (a : Analyzer) : (Chart.timeline ⟨"default", "b", .cons, "load", "given"⟩).title a = .ok "Consumptions given for load on node b" := by rfl

example (a : Analyzer) : (Chart.timeline ⟨"default", "d", .prod, "eolien", "used"⟩).title a = .ok "Production used for eolien on node d" := by rfl

example (a : Analyzer) : (Chart.monotone ⟨"default", "a", .prod, "gas", "used"⟩ none (some 7)).title a =
    .ok "Monotone production of gas on node a at scn=7" := by rfl

example (a : Analyzer) : (Chart.gaussian ⟨"default", "fr", .cons, "load", "given"⟩ none (some 0)).title a =
    .ok "Gaussian consumption of load on node fr at scn=0" := by rfl

example (a : Analyzer) : (Chart.candles "default" "b" "cell" 0).title a = .ok "Stockage capacity of cell on node b for scn=0" := by rfl

-- 33 of 48 cells in `FR-DE Adequacy`, 1657 of 1680 in `Begin Stochastic`
example : racTitle ((33 : ℚ) / 48 * 100) = "RAC Matrix 68 % passed" ∧ racTitle ((1657 : ℚ) / 1680 * 100) = "RAC Matrix 98 % passed" := by
  decide +kernel

/-! ### `docs/source/examples/Storage`: the first bars, whose numbers are copied from the figure -/

-- `high` is below `low` when the storage fills
example : candlesChart (fun t => toString (cut t)) [0, 1, 2, 3, 4, 5]
    [200, 46093801390456963 / 10 ^ 14, 6865714105569248 / 10 ^ 13, 7386068015223593 / 10 ^ 13, 800, 5882927479778839 / 10 ^ 13]
    [46093801390456963 / 10 ^ 14, 6865714105569248 / 10 ^ 13, 7386068015223593 / 10 ^ 13, 800, 5882927479778839 / 10 ^ 13, 5386015059553887 / 10 ^ 13] =
    [⟨0, 200, 200, 46093801390456963 / 10 ^ 14, 46093801390456963 / 10 ^ 14, "0<br>Begin=200<br>End=460<br>Flow=260"⟩,
      ⟨1, 46093801390456963 / 10 ^ 14, 46093801390456963 / 10 ^ 14, 6865714105569248 / 10 ^ 13, 6865714105569248 / 10 ^ 13, "1<br>Begin=460<br>End=686<br>Flow=225"⟩,
      ⟨2, 6865714105569248 / 10 ^ 13, 6865714105569248 / 10 ^ 13, 7386068015223593 / 10 ^ 13, 7386068015223593 / 10 ^ 13, "2<br>Begin=686<br>End=738<br>Flow=52"⟩,
      ⟨3, 7386068015223593 / 10 ^ 13, 7386068015223593 / 10 ^ 13, 800, 800, "3<br>Begin=738<br>End=800<br>Flow=61"⟩,
      ⟨4, 800, 800, 5882927479778839 / 10 ^ 13, 5882927479778839 / 10 ^ 13, "4<br>Begin=800<br>End=588<br>Flow=-211"⟩,
      ⟨5, 5882927479778839 / 10 ^ 13, 5882927479778839 / 10 ^ 13, 5386015059553887 / 10 ^ 13, 5386015059553887 / 10 ^ 13, "5<br>Begin=588<br>End=538<br>Flow=-49"⟩] := by
  decide +kernel

/-! ### Colours of the maps: those of `coolwarm` at 0, 3/4 and 1 -/

/-- `cmap(0)`, `cmap(0.75)` and `cmap(1.0)`: the last two are written in the figures; the first is near (58.6, 76.2, 192.3) / 255 -/
private def coolwarm : ColorMap := fun c =>
  if c = .num 1 then ⟨705673158 / 10 ^ 9, 1555616 / 10 ^ 8, 150232812 / 10 ^ 9⟩
  else if c = .num (3 / 4) then ⟨9566532109764706 / 10 ^ 16, 598033822717647 / 10 ^ 15, 4773022923529412 / 10 ^ 16⟩
  else ⟨2298 / 10 ^ 4, 2987 / 10 ^ 4, 7538 / 10 ^ 4⟩

-- the arrows are written with numbers between 0 and 1
example : arrowColor coolwarm (toFr 10 (3 / 4)) = ⟨9566532109764706 / 10 ^ 16, 598033822717647 / 10 ^ 15, 4773022923529412 / 10 ^ 16⟩ := by
  decide +kernel

-- the scale of the nodes has 255 colours written with integers up to 255
example : (colorScale coolwarm 255).toOption.map (fun l => (l.length, l[0]?, (l[1]?).map Prod.fst, l[254]?)) =
    some (255, some (0, ⟨58, 76, 192⟩), some (1 / 254), some (1, ⟨179, 3, 38⟩)) := by decide +kernel

end Hadar.Conform
