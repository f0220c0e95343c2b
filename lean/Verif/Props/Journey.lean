import Verif.Spec.Journey
import Verif.Proofs.Program
import Verif.Props.Program
import Verif.Props.Viewer
import Verif.Props.Fit
import Verif.Props.Aggregates

/-!
# C130: what charts show is what the program said
-/

namespace Hadar.Props

open Hadar Spec World

variable {h n : ℕ} {before later : List Call} {s : Study} {solver : Solver} {b : Benchmark} {r : Result} {junk : Junk} {a : Analyzer}

theorem curves_of {f : ℕ → ℕ → ℚ} {R : ℕ → ℕ → ℚ → Prop} (eh : s.horizon = h) (en : s.nbScn = n) (hR : ∀ k < n, ∀ t < h, R k t (f k t)) :
    CurvesBy h n R ((List.range s.nbScn).map fun k : ℕ => (Cell.num k, over s (f k))) := by
  subst eh en
  refine ⟨by simp, fun k hk => ⟨over s (f k), by simp [hk], by simp [over], fun t ht => ⟨f k t, by simp [over, ht], hR k hk t ht⟩⟩⟩

theorem solved_mirrors (hs : SolvedBy solver b s r) (hb : Built s) : Mirrors s r := by
  obtain ⟨X, b', rfl⟩ := hs.result hb
  exact mirrors_result (Built.inv hb) X b'

/-- what an accepted call to `consumption` leaves in the study -/
theorem consumption_left {ref : ℕ} {name : String} {cost q : Raw} (hp : Accepted h n before (.nodeConsumption ref name cost q) later s) :
    ∃ (g d : String) (m : InputNode) (i : ℕ) (c : Consumption), StandsFor ((start h n).run before) ref g d ∧ HasNode s g d m ∧ m.consumptions[i]? = some c ∧ c.name = name ∧
      ∀ k < n, ∀ t < h, Means h n cost k t (val c.cost k t) ∧ Means h n q k t (val c.quantity k t) := by
  obtain ⟨hd, hstep⟩ := hp.step
  obtain ⟨e1, e2, e3, e4⟩ := hp.sizes
  obtain ⟨g, d, m0, qv, cv, h1, h2, h3, h4, _⟩ := C09_consumption _ _ _ _ _ _ _ hp.rawCall.2 hp.rawCall.1 hstep
  rw [e3, e4] at h3 h4
  obtain ⟨m, h5, h6⟩ := hp.ext.hasNode (hasNode_changed h2)
  exact ⟨g, d, m, _, _, h1, h5, get_prefix h6.consumptions, rfl, fun k hk t ht => ⟨stores_val h4 hk ht, stores_val h3 hk ht⟩⟩

/-- what an accepted call to `production` leaves in the study -/
theorem production_left {ref : ℕ} {name : String} {cost q : Raw} (hp : Accepted h n before (.nodeProduction ref name cost q) later s) :
    ∃ (g d : String) (m : InputNode) (i : ℕ) (c : Production), StandsFor ((start h n).run before) ref g d ∧ HasNode s g d m ∧ m.productions[i]? = some c ∧ c.name = name ∧
      ∀ k < n, ∀ t < h, Means h n cost k t (val c.cost k t) ∧ Means h n q k t (val c.quantity k t) := by
  obtain ⟨hd, hstep⟩ := hp.step
  obtain ⟨e1, e2, e3, e4⟩ := hp.sizes
  obtain ⟨g, d, m0, qv, cv, h1, h2, h3, h4, _⟩ := C09_production _ _ _ _ _ _ _ hp.rawCall.2 hp.rawCall.1 hstep
  rw [e3, e4] at h3 h4
  obtain ⟨m, h5, h6⟩ := hp.ext.hasNode (hasNode_changed h2)
  exact ⟨g, d, m, _, _, h1, h5, get_prefix h6.productions, rfl, fun k hk t ht => ⟨stores_val h4 hk ht, stores_val h3 hk ht⟩⟩

/-- C130 for `node.consumption(name, cost, quantity)`: the chart `asked` of that consumption, at the node for which the selector stood, has one
curve per scenario, which shows at each time step what the call says; the chart `given` stays between nothing and that. -/
theorem C130_consumption {ref : ℕ} {name : String} {cost q : Raw} (hp : Accepted h n before (.nodeConsumption ref name cost q) later s)
    (hs : SolvedBy solver b s r) (ha : Analyzer.init junk s r = .ok a) :
    ∃ g d asked given, StandsFor ((start h n).run before) ref g d ∧
      Viewer.Item.timeline a ⟨g, d, .cons, name, "asked"⟩ = .ok asked ∧ CurvesBy h n (Means h n q) asked ∧
      Viewer.Item.timeline a ⟨g, d, .cons, name, "given"⟩ = .ok given ∧ CurvesBy h n (WithinMeant h n q) given := by
  obtain ⟨g, d, m, i, c, h1, h2, h3, rfl, h4⟩ := consumption_left hp
  obtain ⟨e1, e2, _, _⟩ := hp.sizes
  have hm := solved_mirrors hs hp.built
  have hG := fun k hk t ht => C18_given (hs.ready hp.built) hs.solved (k := k) hk (fun st lg hl => (hs.answers k hk st lg hl).1) h2 h3 (t := t) ht
  exact ⟨g, d, _, _, h1,
    C68_partial hp.built hm ha (.asked h2 h3) ⟨⟨by simp, by simp⟩, by simp⟩ hs.scenarios hs.steps,
    curves_of e1 e2 fun k hk t ht => (h4 k hk t ht).2,
    C68_partial hp.built hm ha (.given h2 h3) ⟨⟨by simp, by simp⟩, by simp⟩ hs.scenarios hs.steps,
    curves_of e1 e2 fun k hk t ht => by
      have := hG k (by omega) t (by omega)
      exact ⟨this.1, _, (h4 k hk t ht).2, this.2⟩⟩

/-- C130 for `node.production(name, cost, quantity)`: charts `avail` and `used` -/
theorem C130_production {ref : ℕ} {name : String} {cost q : Raw} (hp : Accepted h n before (.nodeProduction ref name cost q) later s)
    (hs : SolvedBy solver b s r) (ha : Analyzer.init junk s r = .ok a) :
    ∃ g d avail used, StandsFor ((start h n).run before) ref g d ∧
      Viewer.Item.timeline a ⟨g, d, .prod, name, "avail"⟩ = .ok avail ∧ CurvesBy h n (Means h n q) avail ∧
      Viewer.Item.timeline a ⟨g, d, .prod, name, "used"⟩ = .ok used ∧ CurvesBy h n (WithinMeant h n q) used := by
  obtain ⟨g, d, m, i, c, h1, h2, h3, rfl, h4⟩ := production_left hp
  obtain ⟨e1, e2, _, _⟩ := hp.sizes
  have hm := solved_mirrors hs hp.built
  have hG := fun k hk t ht => (hs.bounds hp.built (k := k) hk).productions g d m h2 _ _ h3 t ht
  exact ⟨g, d, _, _, h1,
    C68_partial hp.built hm ha (.avail h2 h3) ⟨⟨by simp, by simp⟩, by simp⟩ hs.scenarios hs.steps,
    curves_of e1 e2 fun k hk t ht => (h4 k hk t ht).2,
    C68_partial hp.built hm ha (.used h2 h3) ⟨⟨by simp, by simp⟩, by simp⟩ hs.scenarios hs.steps,
    curves_of e1 e2 fun k hk t ht => by
      have := hG k (by omega) t (by omega)
      exact ⟨this.1, _, (h4 k hk t ht).2, this.2⟩⟩

/-- C130 for `link(src, dest, cost, quantity)` on a network or a node: charts `avail` and `used` of the link of `src` to `dest`, in the network
for which the selector stood -/
theorem C130_link {ref : ℕ} {src dest : String} {cost q : Raw} {c : Call} (hcall : c = .netLink ref src dest cost q ∨ c = .nodeLink ref src dest cost q)
    (hp : Accepted h n before c later s) (hs : SolvedBy solver b s r) (ha : Analyzer.init junk s r = .ok a) :
    ∃ (g : String) (d : Option String) (avail used : List (Cell × List ℚ)), ((start h n).run before).heap[ref]? = some ⟨some g, d⟩ ∧
      Viewer.Item.timeline a ⟨g, src, .link, dest, "avail"⟩ = .ok avail ∧ CurvesBy h n (Means h n q) avail ∧
      Viewer.Item.timeline a ⟨g, src, .link, dest, "used"⟩ = .ok used ∧ CurvesBy h n (WithinMeant h n q) used := by
  obtain ⟨hd, hstep⟩ := hp.step
  obtain ⟨e1, e2, e3, e4⟩ := hp.sizes
  have hraw : (∀ v, cost ≠ .val v) ∧ (∀ v, q ≠ .val v) := by
    have := hp.rawCall
    rcases hcall with rfl | rfl <;> exact this
  obtain ⟨g, m0, qv, cv, h2, _, h0, _, h3, h4, _⟩ := C09_link _ _ c src dest cost q hd
    (hcall.elim (fun e => .inr (.inl ⟨ref, e⟩)) fun e => .inr (.inr ⟨ref, e⟩)) hraw.2 hraw.1 hstep
  obtain ⟨d, h1⟩ := h0 ref hcall
  rw [e3, e4] at h3 h4
  obtain ⟨m, h5, h6⟩ := hp.ext.hasNode (hasNode_changed h2)
  have hc := get_prefix h6.links
  have hm := solved_mirrors hs hp.built
  have hG := fun k hk t ht => (hs.bounds hp.built (k := k) hk).links g src m h5 _ _ hc t ht
  exact ⟨g, d, _, _, h1,
    C68_partial hp.built hm ha (.availLink h5 hc) ⟨⟨by simp, by simp⟩, by simp⟩ hs.scenarios hs.steps,
    curves_of e1 e2 fun k hk t ht => stores_val h3 hk ht,
    C68_partial hp.built hm ha (.usedLink h5 hc) ⟨⟨by simp, by simp⟩, by simp⟩ hs.scenarios hs.steps,
    curves_of e1 e2 fun k hk t ht => by
      have := hG k (by omega) t (by omega)
      exact ⟨this.1, _, stores_val h3 hk ht, this.2⟩⟩

/-- C130 for `network.converter(name, to_network, to_node, max, cost)`: the chart of what the converter brings to the node that the call
names stays between nothing and the given maximum. As C102, for names that are not empty: an empty one is replaced by a later call (C13). -/
theorem C130_converter {onNode : Bool} {ref : ℕ} {name toNetwork toNode : String} {mx : Raw} {cost : Option Raw}
    (hp : Accepted h n before (.converter onNode ref name toNetwork toNode mx cost) later s) (hs : SolvedBy solver b s r)
    (ha : Analyzer.init junk s r = .ok a) (hg : toNetwork ≠ "") (hd : toNode ≠ "") :
    ∃ flow, Viewer.Item.timeline a ⟨toNetwork, toNode, .destConv, name, "flow"⟩ = .ok flow ∧ CurvesBy h n (WithinMeant h n mx) flow := by
  obtain ⟨e1, e2, _, _⟩ := hp.sizes
  obtain ⟨c, o, h1, rfl, rfl, h2, h3, _, h4⟩ := C102_converter_partial hp hs hg hd
  have ho : r.converters.get? name = some o := Dict.get?_of_mem h2 h3
  refine ⟨_, C68_partial hp.built (solved_mirrors hs hp.built) ha (.arrival h1) ⟨⟨by simp, by simp⟩, by simp⟩ hs.scenarios hs.steps,
    curves_of e1 e2 fun k hk t ht => ?_⟩
  obtain ⟨_, M, h5, h6, h7⟩ := h4 k hk t ht
  simp only [dispatchOf, ho]
  exact ⟨h6, M, h5, h7⟩

/-- curves that show what an array of rows means are the rows -/
theorem curves_rows {rows : Rows} {x : NdArray} (hx : RowsArray rows h x) (hn : rows.length = n) {curves : List (Cell × List ℚ)}
    (hc : CurvesBy h n (Means h n (.array x)) curves) : CurvesAre rows curves := by
  subst hn
  refine ⟨hc.1, fun k hk => ?_⟩
  obtain ⟨ys, h1, h2, h3⟩ := hc.2 k hk
  refine ⟨ys, h1, ?_⟩
  have hrow : rows[k]? = some rows[k] := List.getElem?_eq_getElem hk
  have hl := hx.lengths _ (List.getElem_mem hk)
  rw [hrow]
  congr 1
  apply List.ext_getElem?
  intro t
  by_cases ht : t < h
  · obtain ⟨y, hy, hm⟩ := h3 t ht
    obtain ⟨row, hr, hq⟩ := means_row hx rfl hk ht hm
    rw [hrow] at hr
    cases hr
    rw [hq, List.getElem?_map, hy]
    rfl
  · rw [List.getElem?_eq_none (by omega), List.getElem?_eq_none (by simp; omega)]

/-- C130 with shuffled data: when the quantity of a consumption is given by the rows of a shuffle (C58, C99), the chart `asked` shows exactly
these rows, scenario after scenario -/
theorem C130_shuffled {ref : ℕ} {name : String} {cost : Raw} {rows : Rows} {x : NdArray} (hx : RowsArray rows h x) (hn : rows.length = n)
    (hp : Accepted h n before (.nodeConsumption ref name cost (.array x)) later s)
    (hs : SolvedBy solver b s r) (ha : Analyzer.init junk s r = .ok a) :
    ∃ g d asked, StandsFor ((start h n).run before) ref g d ∧ Viewer.Item.timeline a ⟨g, d, .cons, name, "asked"⟩ = .ok asked ∧
      CurvesAre rows asked := by
  obtain ⟨g, d, asked, given, h1, h2, h3, _⟩ := C130_consumption hp hs ha
  exact ⟨g, d, asked, h1, h2, curves_rows hx hn h3⟩

/-- what data means settles the curves that show it -/
theorem curves_same {q : Raw} {curves curves' : List (Cell × List ℚ)} (hc : CurvesBy h n (Means h n q) curves)
    (hc' : CurvesBy h n (Means h n q) curves') : curves = curves' := by
  apply List.ext_getElem?
  intro k
  by_cases hk : k < n
  · obtain ⟨ys, h1, h2, h3⟩ := hc.2 k hk
    obtain ⟨ys', h1', h2', h3'⟩ := hc'.2 k hk
    rw [h1, h1']
    congr 2
    apply List.ext_getElem?
    intro t
    by_cases ht : t < h
    · obtain ⟨y, e, hy⟩ := h3 t ht
      obtain ⟨y', e', hy'⟩ := h3' t ht
      rw [e, e', C01_broadcast_unique h n q k t ht _ _ hy hy']
    · rw [List.getElem?_eq_none (by omega), List.getElem?_eq_none (by omega)]
  · rw [List.getElem?_eq_none (by have := hc.1; omega), List.getElem?_eq_none (by have := hc'.1; omega)]

/-- C130: the rest of a program does not matter. Two programs over the same horizon and scenarios, with a consumption of the same quantity, show
the same chart `asked` for it, whatever else they do, before or after, and whatever their solvers answer. -/
theorem C130_same {ref ref' : ℕ} {name name' : String} {cost cost' q : Raw} {before' later' : List Call} {s' : Study} {solver' : Solver}
    {b' : Benchmark} {r' : Result} {junk' : Junk} {a' : Analyzer}
    (hp : Accepted h n before (.nodeConsumption ref name cost q) later s) (hs : SolvedBy solver b s r) (ha : Analyzer.init junk s r = .ok a)
    (hp' : Accepted h n before' (.nodeConsumption ref' name' cost' q) later' s') (hs' : SolvedBy solver' b' s' r')
    (ha' : Analyzer.init junk' s' r' = .ok a') :
    ∃ g d g' d' asked, StandsFor ((start h n).run before) ref g d ∧ StandsFor ((start h n).run before') ref' g' d' ∧
      Viewer.Item.timeline a ⟨g, d, .cons, name, "asked"⟩ = .ok asked ∧ Viewer.Item.timeline a' ⟨g', d', .cons, name', "asked"⟩ = .ok asked := by
  obtain ⟨g, d, asked, _, h1, h2, h3, _⟩ := C130_consumption hp hs ha
  obtain ⟨g', d', asked', _, h1', h2', h3', _⟩ := C130_consumption hp' hs' ha'
  obtain rfl := curves_same h3 h3'
  exact ⟨g, d, g', d', asked, h1, h1', h2, h2'⟩

/-! ### Concrete cases -/

theorem lpStudy_analysed {r : Result} (hs : SolvedBy (fun _ => lpAnswer) ⟨[], [], 0, 0⟩ lpStudy r) (junk : Junk) :
    ∃ a, Analyzer.init junk lpStudy r = .ok a :=
  init_total lpStudy_ready.built (solved_mirrors hs lpStudy_ready.built) junk lpStudy_ready.complete (by decide +kernel) (by decide +kernel)

/-- load and wind over two scenarios of two time steps, from rows such as those of a shuffle -/
def loadRows : Rows := [[some 10, some 20], [some 30, some 40]]

def loadArray : NdArray := ⟨[2, 2], [10, 20, 30, 40], rfl⟩

theorem loadArray_rows : RowsArray loadRows 2 loadArray := ⟨rfl, by decide +kernel, rfl⟩

def rowsCalls : List Call :=
  [.studyNetwork "elec", .netNode 0 "a", .nodeConsumption 0 "load" (.num 100) (.array loadArray),
   .nodeProduction 0 "wind" (.num 1) (.array ⟨[2, 1], [15, 50], rfl⟩), .netNode 0 "b", .netLink 0 "a" "b" (.num 2) (.num 5)]

def rowsStudy : Study := ((start 2 2).run rowsCalls).study

theorem rowsStudy_ready : Ready rowsStudy where
  built := ⟨2, 2, rowsCalls, rawCalls_of (by decide +kernel), rfl⟩
  complete := by unfold CompleteConverters; decide +kernel
  ratios := RatiosNonzero.usable (by unfold RatiosNonzero; decide +kernel)
  clean := cleanSources_of (by decide +kernel)

/-- 5 are not served at the second time step of the first scenario -/
def calmAnswer : Var → ℚ
  | .prod 0 .. => 10
  | .prod .. => 15
  | .lol 1 .. => 5
  | _ => 0

def gustAnswer : Var → ℚ
  | .prod 0 .. => 30
  | .prod .. => 40
  | _ => 0

def rowsSolver : Solver := fun log => if log.all (Cmd.check log calmAnswer) then calmAnswer else gustAnswer

theorem rowsSolver_feasible {k : ℕ} (hk : k < rowsStudy.nbScn) : Answers rowsSolver rowsStudy k Cmd.Feasible := by
  intro steps log h
  obtain rfl := logOf_eq h
  unfold rowsSolver
  split
  · exact Cmd.feasible_of_check ‹_›
  · rename_i hn
    have h2 : rowsStudy.nbScn = 2 := by decide +kernel
    obtain rfl | rfl : k = 0 ∨ k = 1 := by omega
    · exact absurd (by decide +kernel) hn
    · exact Cmd.feasible_of_check (by decide +kernel)

theorem rowsStudy_distinct : DistinctSources rowsStudy := by unfold DistinctSources; decide +kernel

theorem rowsStudy_solved : ∃ r, SolvedBy rowsSolver ⟨[], [], 0, 0⟩ rowsStudy r := by
  obtain ⟨r, hr⟩ := (C70 rowsStudy_ready.built rowsStudy_distinct (by decide +kernel) (by decide +kernel)
    rowsSolver ⟨[], [], 0, 0⟩).mpr ⟨rowsStudy_ready.complete, rowsStudy_ready.ratios, rowsStudy_ready.clean⟩
  exact ⟨r, by decide +kernel, by decide +kernel, rowsStudy_distinct, hr, fun k hk => rowsSolver_feasible hk⟩

theorem rowsStudy_analysed {r : Result} (hs : SolvedBy rowsSolver ⟨[], [], 0, 0⟩ rowsStudy r) (junk : Junk) :
    ∃ a, Analyzer.init junk rowsStudy r = .ok a :=
  init_total rowsStudy_ready.built (solved_mirrors hs rowsStudy_ready.built) junk rowsStudy_ready.complete (by decide +kernel) (by decide +kernel)

theorem rows_accepted {i : ℕ} {c : Call} (hc : rowsCalls = rowsCalls.take i ++ c :: rowsCalls.drop (i + 1))
    (ha : ∃ hd, (step c ((start 2 2).run (rowsCalls.take i))).1 = .ok hd) :
    Accepted 2 2 (rowsCalls.take i) c (rowsCalls.drop (i + 1)) rowsStudy := by
  refine ⟨?_, ha, ?_⟩
  · rw [← hc]
    exact rawCalls_of (by decide +kernel)
  · rw [← hc]; rfl

theorem loadRow_accepted : Accepted 2 2 (rowsCalls.take 2) (.nodeConsumption 0 "load" (.num 100) (.array loadArray)) (rowsCalls.drop 3) rowsStudy :=
  rows_accepted rfl ⟨.node 0, by decide +kernel⟩

theorem windRow_accepted : Accepted 2 2 (rowsCalls.take 3) (.nodeProduction 0 "wind" (.num 1) (.array ⟨[2, 1], [15, 50], rfl⟩)) (rowsCalls.drop 4)
    rowsStudy :=
  rows_accepted rfl ⟨.node 0, by decide +kernel⟩

/-- the chart of the load shows the rows -/
example (junk : Junk) : ∃ r a asked, SolvedBy rowsSolver ⟨[], [], 0, 0⟩ rowsStudy r ∧ Analyzer.init junk rowsStudy r = .ok a ∧
    Viewer.Item.timeline a ⟨"elec", "a", .cons, "load", "asked"⟩ = .ok asked ∧ CurvesAre loadRows asked := by
  obtain ⟨r, hs⟩ := rowsStudy_solved
  obtain ⟨a, ha⟩ := rowsStudy_analysed hs junk
  obtain ⟨g, d, asked, h1, h2, h3⟩ := C130_shuffled loadArray_rows rfl loadRow_accepted hs ha
  have e : some (⟨some "elec", some "a"⟩ : Sel) = some ⟨some g, some d⟩ := h1
  simp only [Option.some.injEq, Sel.mk.injEq] at e
  obtain ⟨rfl, rfl⟩ := e
  exact ⟨r, a, asked, hs, ha, h2, h3⟩

/-- only one chart shows the rows, with two curves named 0 and 1 -/
example : CurvesAre loadRows [(.num (0 : ℕ), [10, 20]), (.num (1 : ℕ), [30, 40])] := by
  refine ⟨rfl, fun k hk => ?_⟩
  have : k < 2 := hk
  obtain rfl | rfl : k = 0 ∨ k = 1 := by omega
  · exact ⟨[10, 20], rfl, rfl⟩
  · exact ⟨[30, 40], rfl, rfl⟩

/-- wind given per scenario is a flat curve in each -/
example (junk : Junk) : ∃ r a avail, SolvedBy rowsSolver ⟨[], [], 0, 0⟩ rowsStudy r ∧ Analyzer.init junk rowsStudy r = .ok a ∧
    Viewer.Item.timeline a ⟨"elec", "a", .prod, "wind", "avail"⟩ = .ok avail ∧
    avail = [(.num (0 : ℕ), [15, 15]), (.num (1 : ℕ), [50, 50])] := by
  obtain ⟨r, hs⟩ := rowsStudy_solved
  obtain ⟨a, ha⟩ := rowsStudy_analysed hs junk
  obtain ⟨g, d, avail, used, h1, h2, h3, _⟩ := C130_production windRow_accepted hs ha
  have e : some (⟨some "elec", some "a"⟩ : Sel) = some ⟨some g, some d⟩ := h1
  simp only [Option.some.injEq, Sel.mk.injEq] at e
  obtain ⟨rfl, rfl⟩ := e
  refine ⟨r, a, avail, hs, ha, h2, curves_same h3 ⟨rfl, fun k hk => ?_⟩⟩
  obtain rfl | rfl : k = 0 ∨ k = 1 := by omega
  · refine ⟨[15, 15], rfl, rfl, fun t ht => ?_⟩
    obtain rfl | rfl : t = 0 ∨ t = 1 := by omega
    · exact ⟨15, rfl, .perScenario _ _ _ _ rfl rfl⟩
    · exact ⟨15, rfl, .perScenario _ _ _ _ rfl rfl⟩
  · refine ⟨[50, 50], rfl, rfl, fun t ht => ?_⟩
    obtain rfl | rfl : t = 0 ∨ t = 1 := by omega
    · exact ⟨50, rfl, .perScenario _ _ _ _ rfl rfl⟩
    · exact ⟨50, rfl, .perScenario _ _ _ _ rfl rfl⟩

example (junk : Junk) : ∃ r a, SolvedBy rowsSolver ⟨[], [], 0, 0⟩ rowsStudy r ∧ Analyzer.init junk rowsStudy r = .ok a ∧
    ∃ g d asked given, StandsFor ((start 2 2).run (rowsCalls.take 2)) 0 g d ∧
      Viewer.Item.timeline a ⟨g, d, .cons, "load", "asked"⟩ = .ok asked ∧ CurvesBy 2 2 (Means 2 2 (.array loadArray)) asked ∧
      Viewer.Item.timeline a ⟨g, d, .cons, "load", "given"⟩ = .ok given ∧ CurvesBy 2 2 (WithinMeant 2 2 (.array loadArray)) given := by
  obtain ⟨r, hs⟩ := rowsStudy_solved
  obtain ⟨a, ha⟩ := rowsStudy_analysed hs junk
  exact ⟨r, a, hs, ha, C130_consumption loadRow_accepted hs ha⟩

example (junk : Junk) : ∃ r a, SolvedBy rowsSolver ⟨[], [], 0, 0⟩ rowsStudy r ∧ Analyzer.init junk rowsStudy r = .ok a ∧
    ∃ (g : String) (d : Option String) (avail used : List (Cell × List ℚ)),
      ((start 2 2).run (rowsCalls.take 5)).heap[0]? = some ⟨some g, d⟩ ∧
      Viewer.Item.timeline a ⟨g, "a", .link, "b", "avail"⟩ = .ok avail ∧ CurvesBy 2 2 (Means 2 2 (.num 5)) avail ∧
      Viewer.Item.timeline a ⟨g, "a", .link, "b", "used"⟩ = .ok used ∧ CurvesBy 2 2 (WithinMeant 2 2 (.num 5)) used := by
  obtain ⟨r, hs⟩ := rowsStudy_solved
  obtain ⟨a, ha⟩ := rowsStudy_analysed hs junk
  exact ⟨r, a, hs, ha, C130_link (.inl rfl) (rows_accepted (i := 5) (c := .netLink 0 "a" "b" (.num 2) (.num 5)) rfl ⟨.net 0, by decide +kernel⟩) hs ha⟩

example (junk : Junk) : ∃ r a flow, SolvedBy (fun _ => lpAnswer) ⟨[], [], 0, 0⟩ lpStudy r ∧ Analyzer.init junk lpStudy r = .ok a ∧
    Viewer.Item.timeline a ⟨"elec", "b", .destConv, "conv", "flow"⟩ = .ok flow ∧ CurvesBy 1 1 (WithinMeant 1 1 (.num 3)) flow := by
  obtain ⟨r, hs⟩ := lpStudy_solved
  obtain ⟨a, ha⟩ := lpStudy_analysed hs junk
  obtain ⟨flow, h1, h2⟩ := C130_converter (accepted_of (i := 13) (c := .converter true 1 "conv" "elec" "b" (.num 3) (some (.num 2))) rfl
    ⟨.net 2, by decide +kernel⟩) hs ha (by decide) (by decide)
  exact ⟨r, a, flow, hs, ha, h1, h2⟩

/-- the same program, solved by another solver -/
example (junk : Junk) (solver : Solver) (b : Benchmark) (r' : Result) (a' : Analyzer) (hs' : SolvedBy solver b rowsStudy r')
    (ha' : Analyzer.init junk rowsStudy r' = .ok a') : ∃ r a, SolvedBy rowsSolver ⟨[], [], 0, 0⟩ rowsStudy r ∧ Analyzer.init junk rowsStudy r = .ok a ∧
    Viewer.Item.timeline a ⟨"elec", "a", .cons, "load", "asked"⟩ = Viewer.Item.timeline a' ⟨"elec", "a", .cons, "load", "asked"⟩ := by
  obtain ⟨r, hs⟩ := rowsStudy_solved
  obtain ⟨a, ha⟩ := rowsStudy_analysed hs junk
  obtain ⟨g, d, g', d', asked, h1, h1', h2, h2'⟩ := C130_same loadRow_accepted hs ha loadRow_accepted hs' ha'
  have e : some (⟨some "elec", some "a"⟩ : Sel) = some ⟨some g, some d⟩ := h1
  have e' : some (⟨some "elec", some "a"⟩ : Sel) = some ⟨some g', some d'⟩ := h1'
  simp only [Option.some.injEq, Sel.mk.injEq] at e e'
  obtain ⟨rfl, rfl⟩ := e
  obtain ⟨rfl, rfl⟩ := e'
  exact ⟨r, a, hs, ha, h2.trans h2'.symm⟩

end Hadar.Props
