import Verif.Conform.Chain
import Verif.Model.LP

/-!
# `tests/optimizer/lp` on the model

`MockNumVar(0, max, name)` of the tests is a `NumVar` call of the log; variables have their place for name.
-/

namespace Hadar.Conform

/-- a nested list given as quantity -/
def table (l : List (List ℚ)) : Raw := .json (.arr (l.map fun r => .arr (r.map .num)))

/-! ### `test_mapper.py`, `TestInputMapper` -/

-- test_map_consumption
def consStudy : Study := built 2 2 [.network, .node "a",
  .consumption "load" (quantity := table [[10, 1], [20, 2]]) (cost := table [[1 / 100, 1 / 10], [2 / 100, 2 / 10]])]

example : getNodeVar consStudy "default" "a" 0 0 = .ok ⟨[⟨1 / 100, 10, "load", .lol 0 "default" "a" 0⟩], [], [], []⟩ ∧
    (LPNode.numVars ⟨[⟨1 / 100, 10, "load", .lol 0 "default" "a" 0⟩], [], [], []⟩) = [.numVar (.lol 0 "default" "a" 0) 0 10] ∧
    getNodeVar consStudy "default" "a" 1 1 = .ok ⟨[⟨2 / 10, 2, "load", .lol 1 "default" "a" 0⟩], [], [], []⟩ ∧
    (LPNode.numVars ⟨[⟨2 / 10, 2, "load", .lol 1 "default" "a" 0⟩], [], [], []⟩) = [.numVar (.lol 1 "default" "a" 0) 0 2] := by
  decide +kernel

-- test_map_production
def prodStudy : Study := built 2 2 [.network, .node "a",
  .production "nuclear" (quantity := table [[12, 2], [21, 20]]) (cost := table [[12 / 100, 2 / 10], [21 / 100, 2 / 100]])]

example : getNodeVar prodStudy "default" "a" 0 0 = .ok ⟨[], [⟨"nuclear", 12 / 100, .prod 0 "default" "a" 0, 12⟩], [], []⟩ ∧
    (LPNode.numVars ⟨[], [⟨"nuclear", 12 / 100, .prod 0 "default" "a" 0, 12⟩], [], []⟩) = [.numVar (.prod 0 "default" "a" 0) 0 12] ∧
    getNodeVar prodStudy "default" "a" 1 1 = .ok ⟨[], [⟨"nuclear", 2 / 100, .prod 1 "default" "a" 0, 20⟩], [], []⟩ ∧
    (LPNode.numVars ⟨[], [⟨"nuclear", 2 / 100, .prod 1 "default" "a" 0, 20⟩], [], []⟩) = [.numVar (.prod 1 "default" "a" 0) 0 20] := by
  decide +kernel

-- test_map_storage
def cellStudy : Study := built 2 2 [.network, .node "a",
  .storage "cell" (capacity := .num 10) (flowIn := .num 1) (flowOut := .num 1) (cost := some (.num 1)) (initCapacity := some 2)
    (eff := some (.num (9 / 10)))]

def cellNode (t : ℕ) : LPNode Var := ⟨[], [], [⟨"cell", 10, .cap t "default" "a" 0, 1, .fin t "default" "a" 0, 1, .fout t "default" "a" 0,
  1, 2, 9 / 10⟩], []⟩

example : getNodeVar cellStudy "default" "a" 0 0 = .ok (cellNode 0) ∧ getNodeVar cellStudy "default" "a" 1 1 = .ok (cellNode 1) ∧
    (cellNode 0).numVars = [.numVar (.cap 0 "default" "a" 0) 0 10, .numVar (.fin 0 "default" "a" 0) 0 1,
      .numVar (.fout 0 "default" "a" 0) 0 1] := by decide +kernel

-- test_map_links
def linkStudy : Study := built 2 2 [.network, .node "a", .node "be",
  .link "a" "be" (quantity := table [[10, 3], [20, 30]]) (cost := table [[1 / 100, 3 / 10], [2 / 100, 3 / 100]])]

example : getNodeVar linkStudy "default" "a" 0 0 = .ok ⟨[], [], [], [⟨"a", "be", 10, .link 0 "default" "a" 0, 1 / 100⟩]⟩ ∧
    (LPNode.numVars ⟨[], [], [], [⟨"a", "be", 10, .link 0 "default" "a" 0, 1 / 100⟩]⟩) = [.numVar (.link 0 "default" "a" 0) 0 10] ∧
    getNodeVar linkStudy "default" "a" 1 1 = .ok ⟨[], [], [], [⟨"a", "be", 30, .link 1 "default" "a" 0, 3 / 100⟩]⟩ := by decide +kernel

-- test_map_converter
def convStudy : Study := built 1 1 [.network (some "gas"), .node "a", .toConverter "conv" (some (.num (1 / 2))),
  .network, .node "b", .converter "conv" "default" "b" (max := .num 100)]

example : getConvVar convStudy "conv" 0 0 = .ok (⟨"conv", [(["gas", "a"], 1 / 2)], [(["gas", "a"], .convSrc 0 "conv" ["gas", "a"])],
    "default", "b", .convDest 0 "conv", 0, 100⟩,
    [.numVar (.convSrc 0 "conv" ["gas", "a"]) 0 200, .numVar (.convDest 0 "conv") 0 100]) := by decide +kernel

/-! ### `test_mapper.py`, `TestOutputMapper` -/

def noBench : Benchmark := ⟨[], [], 0, 0⟩

def square (a b c d : ℚ) : NdArray := ⟨[2, 2], [a, b, c, d], rfl⟩

/-- variables set at (t=0, scn=0), then at (t=1, scn=1) on node `a` -/
def twice (s : Study) (v0 v1 : LPNode ℚ) : Except PyErr Result :=
  (OutputMapper.setNodeVar "default" "a" 0 0 v0 (OutputMapper.init s noBench)).bind (OutputMapper.setNodeVar "default" "a" 1 1 v1)

-- test_map_consumption
example : twice consStudy ⟨[⟨1 / 100, 10, "load", 5⟩], [], [], []⟩ ⟨[⟨2 / 10, 20, "load", 5⟩], [], [], []⟩ =
    .ok ⟨[("default", ⟨[("a", ⟨[⟨square 5 0 0 15, "load"⟩], [], [], []⟩)]⟩)], [], noBench⟩ := by decide +kernel

-- test_map_production
example : twice prodStudy ⟨[], [⟨"nuclear", 12 / 100, 12, 12⟩], [], []⟩ ⟨[], [⟨"nuclear", 21 / 100, 112, 2⟩], [], []⟩ =
    .ok ⟨[("default", ⟨[("a", ⟨[], [⟨"nuclear", square 12 0 0 112⟩], [], []⟩)]⟩)], [], noBench⟩ := by decide +kernel

-- test_map_storage
example : twice cellStudy ⟨[], [], [⟨"cell", 10, 5, 1, 2, 1, 4, 1, 2, 9 / 10⟩], []⟩ ⟨[], [], [⟨"cell", 10, 55, 1, 22, 1, 44, 1, 2, 9 / 10⟩], []⟩ =
    .ok ⟨[("default", ⟨[("a", ⟨[], [], [⟨"cell", square 5 0 0 55, square 2 0 0 22, square 4 0 0 44⟩], []⟩)]⟩)], [], noBench⟩ := by
  decide +kernel

-- test_map_link
example : twice linkStudy ⟨[], [], [], [⟨"a", "be", 10, 8, 1 / 100⟩]⟩ ⟨[], [], [], [⟨"a", "be", 10, 18, 2 / 100⟩]⟩ =
    .ok ⟨[("default", ⟨[("a", ⟨[], [], [], [⟨"be", square 8 0 0 18⟩]⟩), ("be", ⟨[], [], [], []⟩)]⟩)], [], noBench⟩ := by decide +kernel

-- test_map_converter
example : OutputMapper.setConverterVar "conv" 0 0 ⟨"conv", [(["gas", "a"], 1 / 2)], [(["gas", "a"], 200)], "default", "b", 100, 0, 100⟩
    (OutputMapper.init convStudy noBench) =
    .ok ⟨[("gas", ⟨[("a", ⟨[], [], [], []⟩)]⟩), ("default", ⟨[("b", ⟨[], [], [], []⟩)]⟩)],
      [("conv", ⟨"conv", [(["gas", "a"], ⟨[1, 1], [200], rfl⟩)], ⟨[1, 1], [100], rfl⟩⟩)], noBench⟩ := by decide +kernel

/-! ### `test_optimizer.py` -/

/-- the variables of node `fr` -/
def vLoad : Var := .lol 0 "default" "fr" 0
def vSolar : Var := .prod 0 "default" "fr" 0
def vCap : Var := .cap 0 "default" "fr" 0
def vIn : Var := .fin 0 "default" "fr" 0
def vOut : Var := .fout 0 "default" "fr" 0
def vBe : Var := .link 0 "default" "fr" 0

/-- the node of `TestObjectiveBuilder` and `TestAdequacyBuilder` -/
def frNode : LPNode Var := ⟨[⟨10, 10, "load", vLoad⟩], [⟨"solar", 20, vSolar, 10⟩], [⟨"cell", 10, vCap, 1, vIn, 10, vOut, 1, 2, 12 / 10⟩],
  [⟨"fr", "be", 10, vBe, 30⟩]⟩

def beNode : LPNode Var := ⟨[], [], [], []⟩

def vDest : Var := .convDest 0 "conv"
def vSrc : Var := .convSrc 0 "conv" ["gas", "a"]

def testConv : LPConverter Var := ⟨"conv", [(["gas", "a"], 1 / 2)], [(["gas", "a"], vSrc)], "default", "b", vDest, 10, 100⟩

-- TestObjectiveBuilder
example : Cmd.objCoefs (ObjectiveBuilder.addNode frNode) = [(vLoad, 10), (vSolar, 20), (vCap, 1), (vBe, 30)] := by decide +kernel
example : Cmd.objCoefs (ObjectiveBuilder.addConverter testConv) = [(vDest, 10)] := by decide +kernel

/-- the keys and imports after `add_node` on `fr` and `be` -/
def adeqLog : Except PyErr (List Cmd) :=
  (AdequacyBuilder.build [(0, "default", "fr"), (0, "default", "be")]
    ((AdequacyBuilder.importsOf "default" frNode 0 ++ AdequacyBuilder.importsOf "default" beNode 0).foldl (fun d p => d.set p.1 p.2) [])).map
    fun l => AdequacyBuilder.addNode "default" "fr" frNode 0 ++ AdequacyBuilder.addNode "default" "be" beNode 0 ++ l

-- TestAdequacyBuilder.test_add_node
example : adeqLog.map (fun l => (Cmd.coefs l (.adeq 0 "default" "fr"), Cmd.coefs l (.adeq 0 "default" "be"))) =
    .ok ([(vLoad, 1), (vSolar, 1), (vIn, -1), (vOut, 1), (vBe, -1)], [(vBe, 1)]) := by decide +kernel
example : adeqLog.map (fun l => l.filter fun c => match c with | .constraint .. => true | _ => false) =
    .ok [.constraint (.adeq 0 "default" "fr") 10 10, .constraint (.adeq 0 "default" "be") 0 0] := by decide +kernel

-- TestAdequacyBuilder.test_add_converter
example : (AdequacyBuilder.addConverter [(0, "gas", "a"), (0, "default", "b")] testConv 0).map
    (fun l => (Cmd.coefs l (.adeq 0 "default" "b"), Cmd.coefs l (.adeq 0 "gas" "a"))) = .ok ([(vDest, 1)], [(vSrc, -1)]) := by decide +kernel

instance : DecidableEq (Dict SubKey Var) := inferInstanceAs (DecidableEq (List (SubKey × Var)))

-- TestStorageBuilder.test_t0
example : StorageBuilder.addNode [] "default" "fr" ⟨[], [], frNode.storages, []⟩ 0 =
    .ok ([.constraint (.stor 0 "default" "fr" "cell") 2 2, .setCoef (.stor 0 "default" "fr" "cell") vIn (-(12 / 10)),
      .setCoef (.stor 0 "default" "fr" "cell") vOut 1, .setCoef (.stor 0 "default" "fr" "cell") vCap 1],
      [((0, "default", "fr", "cell"), vCap)]) := by decide +kernel

-- TestStorageBuilder.test
def vCap1 : Var := .cap 1 "default" "fr" 0
example : StorageBuilder.addNode [((0, "default", "fr", "cell"), vCap)] "default" "fr"
    ⟨[], [], [⟨"cell", 10, vCap1, 1, vIn, 10, vOut, 1, 2, 12 / 10⟩], []⟩ 1 =
    .ok ([.constraint (.stor 1 "default" "fr" "cell") 0 0, .setCoef (.stor 1 "default" "fr" "cell") vIn (-(12 / 10)),
      .setCoef (.stor 1 "default" "fr" "cell") vOut 1, .setCoef (.stor 1 "default" "fr" "cell") vCap (-1),
      .setCoef (.stor 1 "default" "fr" "cell") vCap1 1],
      [((0, "default", "fr", "cell"), vCap), ((1, "default", "fr", "cell"), vCap1)]) := by decide +kernel

-- TestConverterMixBuilder.test
example : (ConverterMixBuilder.addConverter testConv 0).map (fun l => (l.head?, Cmd.coefs l (.mix 0 "conv" ["gas", "a"]))) =
    .ok (some (.constraint (.mix 0 "conv" ["gas", "a"]) 0 0), [(vSrc, 1 / 2), (vDest, -1)]) := by decide +kernel

/-- `MockNumVar.solution_value`: the upper bound of the variable -/
def mockSolver : Solver := fun log v =>
  (log.findSome? fun c => match c with
    | .numVar w _ ub => if w = v then some ub else none
    | _ => none).getD 0

-- TestSolve.test_solve_batch; the test mocks the mapper, and gives the converter another ratio than the study
def batchStudy : Study := built 1 1 [.network, .node "a", .consumption "load" (cost := .num 10) (quantity := .num 10), .toConverter "conv",
  .network (some "gas"), .node "b", .converter "conv" "gas" "b" (max := .num 10) (cost := some (.num 1))]

example : solveBatch mockSolver batchStudy 0 = .ok [⟨[("default", [("a", ⟨[⟨10, 10, "load", 10⟩], [], [], []⟩)]), ("gas", [("b", ⟨[], [], [], []⟩)])],
    [("conv", ⟨"conv", [(["default", "a"], 1)], [(["default", "a"], 10)], "gas", "b", 10, 1, 10⟩)]⟩] := by decide +kernel

end Hadar.Conform
