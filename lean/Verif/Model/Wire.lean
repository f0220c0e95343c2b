import Verif.Model.LP

/-!
# Types of numbers, `JSON.convert` and what goes over a wire

Python objects as `JSON.convert` (utils.py 43-56) and `JSONLP.to_json` (lp/domain.py 18-41) see them:
numbers and arrays come with their type. The rest of the model forgets these types.
-/

namespace Hadar

/-- Types of real numbers: Python's `int` and `float`, numpy's `int64` and `float64`, and the other
types of numpy (`float32`, `int32`, `uint8`, ...). Complex numbers and booleans are left out. -/
inductive NumType where
  | int
  | float
  | int64
  | float64
  | other
  deriving DecidableEq, Repr

/-- Python objects: `var` is an ortools variable with its `solution_value()`; `list` stands for lists
and tuples, `dict` has strings as keys and `tdict` tuples of strings; `obj` is an object of a class
derived from `JSON` with the inherited `to_json` (utils.py 58-59), `conv` a `Converter` (its own
`to_json`, input.py 183-191), `study` a `Study` (input.py 288-292), `lp` an object of a class derived
from `JSONLP`, all with their attributes; `native` is any other object. -/
inductive PyTree where
  | null
  | num (t : NumType) (q : ℚ)
  | str (s : String)
  | nd (t : NumType) (a : NdArray)
  | var (q : ℚ)
  | list (l : List PyTree)
  | dict (l : List (String × PyTree))
  | tdict (l : List (List String × PyTree))
  | obj (l : List (String × PyTree))
  | conv (l : List (String × PyTree))
  | study (l : List (String × PyTree))
  | lp (l : List (String × PyTree))
  | native

/-- the type of the numbers `tolist()` makes: Python numbers, whole ones for arrays of integers.
Simplification: for the types put together in `other` the model says `float`. -/
def NumType.listed : NumType → NumType
  | .int | .int64 => .int
  | _ => .float

/-- `int(value)` and `float(value)` on the two types looked for by utils.py 50-53 and
lp/domain.py 30-33 -/
def NumType.converted : NumType → NumType
  | .int64 => .int
  | .float64 => .float
  | t => t

namespace PyTree

/-- `ndarray.tolist()` (as `Json.ofNdAux`) -/
def tolistAux (t : NumType) : List ℕ → List ℚ → PyTree
  | [], l => match l with
    | q :: _ => .num t.listed q
    | [] => .null
  | n :: sh, l => .list ((chunks n sh.prod l).map (tolistAux t sh))

/-- `ndarray.tolist()` -/
def tolist (t : NumType) (a : NdArray) : PyTree := tolistAux t a.shape a.data

mutual
/-- `copy` inside `JSONLP.to_json` (lp/domain.py 20-35): a tuple used as key becomes a text, so that
entries whose keys have the same text override each other. -/
def copy : PyTree → PyTree
  | .var q => .num .float q
  | .dict l => .dict (copyEntries l)
  | .tdict l => .dict (Dict.ofList (copyTEntries l))
  | .num t q => .num t.converted q
  | v => v
/-- the entries of a dict with texts as keys -/
def copyEntries : List (String × PyTree) → List (String × PyTree)
  | [] => []
  | p :: l => copyEntry p :: copyEntries l
/-- one entry -/
def copyEntry : String × PyTree → String × PyTree
  | (k, v) => (k, copy v)
/-- the entries of a dict with tuples as keys -/
def copyTEntries : List (List String × PyTree) → List (String × PyTree)
  | [] => []
  | p :: l => copyTEntry p :: copyTEntries l
/-- one entry -/
def copyTEntry : List String × PyTree → String × PyTree
  | (k, v) => (joinKey k, copy v)
end

/-- the attribute `src_ratios` of a `Converter`: tuples used as keys become texts (input.py 188-190) -/
def joinTuples : String × PyTree → String × PyTree
  | (k, .tdict l) => (k, .dict (Dict.ofList (l.map fun p => (joinKey p.1, p.2))))
  | p => p

mutual
/-- `JSON.convert` (utils.py 43-56) with `to_json` of `JSON` (58-59), of `Converter` (input.py
183-191), of `Study` (input.py 288-292, without the attribute `factory`) and of `JSONLP` (lp/domain.py
36). Simplification: `Converter.to_json` converts `src_ratios` twice, the second time changes
nothing. -/
def convert : PyTree → PyTree
  | .obj l => .dict (convertEntries l)
  | .conv l => .dict ((convertEntries l).map joinTuples)
  | .study l => .dict ((convertEntries l).filter fun p => p.1 ≠ "factory")
  | .lp l => .dict (copyEntries l)
  | .dict l => .dict (convertEntries l)
  | .tdict l => .tdict (convertTEntries l)
  | .list l => .list (convertAll l)
  | .num t q => .num t.converted q
  | .nd t a => tolist t a
  | .null => .null
  | .str s => .str s
  | .var q => .var q
  | .native => .native
/-- the elements of a list -/
def convertAll : List PyTree → List PyTree
  | [] => []
  | v :: l => convert v :: convertAll l
/-- the entries of a dict with texts as keys -/
def convertEntries : List (String × PyTree) → List (String × PyTree)
  | [] => []
  | p :: l => convertEntry p :: convertEntries l
/-- one entry -/
def convertEntry : String × PyTree → String × PyTree
  | (k, v) => (k, convert v)
/-- the entries of a dict with tuples as keys -/
def convertTEntries : List (List String × PyTree) → List (List String × PyTree)
  | [] => []
  | p :: l => convertTEntry p :: convertTEntries l
/-- one entry -/
def convertTEntry : List String × PyTree → List String × PyTree
  | (k, v) => (k, convert v)
end

/-- numbers that `json.dumps` and `msgpack.packb` take: Python's own, and `np.float64`, which is
derived from `float` -/
def sendable : NumType → Bool
  | .int | .float | .float64 => true
  | _ => false

mutual
/-- what comes out at the other end: `json.loads(json.dumps(v))` and
`msgpack.unpackb(msgpack.packb(v))`; `none` when the object cannot be sent (`TypeError`). -/
def wire : PyTree → Option Json
  | .null => some .null
  | .num t q => if sendable t then some (.num q) else none
  | .str s => some (.str s)
  | .list l => (wireAll l).map .arr
  | .dict l => (wireEntries l).map .obj
  | _ => none
/-- the elements of a list -/
def wireAll : List PyTree → Option (List Json)
  | [] => some []
  | v :: l => match wire v, wireAll l with
    | some j, some js => some (j :: js)
    | _, _ => none
/-- the entries of a dict -/
def wireEntries : List (String × PyTree) → Option (List (String × Json))
  | [] => some []
  | p :: l => match wireEntry p, wireEntries l with
    | some j, some js => some (j :: js)
    | _, _ => none
/-- one entry -/
def wireEntry : String × PyTree → Option (String × Json)
  | (k, v) => match wire v with
    | some j => some (k, j)
    | none => none
end

end PyTree

/-! ### A study with the types of its numbers -/

/-- where a number of a study is -/
inductive Place where
  | cons (net node : String) (i : ℕ)
  | prod (net node : String) (i : ℕ)
  | stor (net node : String) (i : ℕ)
  | link (net node : String) (i : ℕ)
  | conv (name : String)
  | src (name : String) (key : List String)
  deriving DecidableEq, Repr

/-- the type of the numbers of each attribute -/
abbrev Types : Type := Place → String → NumType

open PyTree

/-- a `NumericalValue` whose numbers have type `t` (numeric.py 23-26) -/
def NumVal.tree (t : NumType) (v : NumVal) : PyTree :=
  .obj [("value", match v.kind with
      | .scalar q => .num t q
      | .matrix a | .row a | .column a => .nd t a),
    ("horizon", .num .int v.horizon), ("nb_scn", .num .int v.nbScn)]

/-- the `cost` or `max` of a converter, at first the Python number 0 (input.py 415) -/
def ConvField.tree (t : NumType) : ConvField → PyTree
  | .int0 => .num .int 0
  | .val v => v.tree t

/-- attributes of a `Consumption` (input.py 45-48) -/
def Consumption.tree (ty : String → NumType) (c : Consumption) : PyTree :=
  .obj [("cost", c.cost.tree (ty "cost")), ("quantity", c.quantity.tree (ty "quantity")), ("name", .str c.name)]

/-- attributes of a `Production` (input.py 72-74) -/
def Production.tree (ty : String → NumType) (c : Production) : PyTree :=
  .obj [("name", .str c.name), ("cost", c.cost.tree (ty "cost")), ("quantity", c.quantity.tree (ty "quantity"))]

/-- attributes of a `Storage` (input.py 108-114); `init_capacity` is kept as the user gave it -/
def Storage.tree (ty : String → NumType) (c : Storage) : PyTree :=
  .obj [("name", .str c.name), ("capacity", c.capacity.tree (ty "capacity")),
    ("flow_in", c.flowIn.tree (ty "flow_in")), ("flow_out", c.flowOut.tree (ty "flow_out")),
    ("cost", c.cost.tree (ty "cost")), ("init_capacity", .num (ty "init_capacity") c.initCapacity),
    ("eff", c.eff.tree (ty "eff"))]

/-- attributes of a `Link` (input.py 140-142) -/
def Link.tree (ty : String → NumType) (c : Link) : PyTree :=
  .obj [("dest", .str c.dest), ("quantity", c.quantity.tree (ty "quantity")), ("cost", c.cost.tree (ty "cost"))]

/-- attributes of a `Converter` (input.py 176-181) -/
def Converter.tree (ty : Types) (name : String) (c : Converter) : PyTree :=
  .conv [("name", .str c.name),
    ("src_ratios", .tdict (c.srcRatios.map fun p => (p.1, p.2.tree (ty (.src name p.1) "ratio")))),
    ("dest_network", .str c.destNetwork), ("dest_node", .str c.destNode),
    ("cost", c.cost.tree (ty (.conv name) "cost")), ("max", c.max.tree (ty (.conv name) "max"))]

/-- attributes of an `InputNode` (input.py 227-230) -/
def InputNode.tree (ty : Types) (net node : String) (n : InputNode) : PyTree :=
  .obj [("consumptions", .list (n.consumptions.zipIdx.map fun p => p.1.tree (ty (.cons net node p.2)))),
    ("productions", .list (n.productions.zipIdx.map fun p => p.1.tree (ty (.prod net node p.2)))),
    ("storages", .list (n.storages.zipIdx.map fun p => p.1.tree (ty (.stor net node p.2)))),
    ("links", .list (n.links.zipIdx.map fun p => p.1.tree (ty (.link net node p.2))))]

/-- a `Study` as a Python object (input.py 281-286); an `InputNetwork` has one attribute (258) -/
def Study.tree (ty : Types) (s : Study) : PyTree :=
  .study [("version", .str s.version),
    ("networks", .dict (s.networks.map fun p =>
      (p.1, .obj [("nodes", .dict (p.2.nodes.map fun q => (q.1, q.2.tree ty p.1 q.1)))]))),
    ("converters", .dict (s.converters.map fun p => (p.1, p.2.tree ty p.1))),
    ("horizon", .num .int s.horizon), ("nb_scn", .num .int s.nbScn), ("factory", .native)]

/-! ### The result as a Python object -/

/-- attributes of an `OutputConsumption` (output.py 38-39) -/
def OutputConsumption.tree (t : NumType) (c : OutputConsumption) : PyTree :=
  .obj [("quantity", .nd t c.quantity), ("name", .str c.name)]

/-- attributes of an `OutputProduction` (output.py 58-59) -/
def OutputProduction.tree (t : NumType) (c : OutputProduction) : PyTree :=
  .obj [("name", .str c.name), ("quantity", .nd t c.quantity)]

/-- attributes of an `OutputStorage` (output.py 86-89) -/
def OutputStorage.tree (ty : String → NumType) (c : OutputStorage) : PyTree :=
  .obj [("name", .str c.name), ("capacity", .nd (ty "capacity") c.capacity),
    ("flow_in", .nd (ty "flow_in") c.flowIn), ("flow_out", .nd (ty "flow_out") c.flowOut)]

/-- attributes of an `OutputLink` (output.py 108-109) -/
def OutputLink.tree (t : NumType) (c : OutputLink) : PyTree :=
  .obj [("dest", .str c.dest), ("quantity", .nd t c.quantity)]

/-- attributes of an `OutputConverter` (output.py 134-136); its `to_json` (138-146) does the same as
the one of `Converter`, with `tolist` in place of `convert` -/
def OutputConverter.tree (ty : Types) (name : String) (c : OutputConverter) : PyTree :=
  .conv [("name", .str c.name),
    ("flow_src", .tdict (c.flowSrc.map fun p => (p.1, .nd (ty (.src name p.1) "flow_src") p.2))),
    ("flow_dest", .nd (ty (.conv name) "flow_dest") c.flowDest)]

/-- attributes of an `OutputNode` (output.py 178-181) -/
def OutputNode.tree (ty : Types) (net node : String) (n : OutputNode) : PyTree :=
  .obj [("consumptions", .list (n.consumptions.zipIdx.map fun p => p.1.tree (ty (.cons net node p.2) "quantity"))),
    ("productions", .list (n.productions.zipIdx.map fun p => p.1.tree (ty (.prod net node p.2) "quantity"))),
    ("storages", .list (n.storages.zipIdx.map fun p => p.1.tree (ty (.stor net node p.2)))),
    ("links", .list (n.links.zipIdx.map fun p => p.1.tree (ty (.link net node p.2) "quantity")))]

/-- attributes of a `Benchmark` (output.py 245-248): durations are differences of `time.time()` -/
def Benchmark.tree (b : Benchmark) : PyTree :=
  .obj [("modeler", .list (b.modeler.map (.num .float))), ("solver", .list (b.solver.map (.num .float))),
    ("mapper", .num .float b.mapper), ("total", .num .float b.total)]

/-- attributes of a `Result` (output.py 270-272); an `OutputNetwork` has one attribute (229) -/
def Result.tree (ty : Types) (r : Result) : PyTree :=
  .obj [("networks", .dict (r.networks.map fun p =>
      (p.1, .obj [("nodes", .dict (p.2.nodes.map fun q => (q.1, q.2.tree ty p.1 q.1)))]))),
    ("converters", .dict (r.converters.map fun p => (p.1, p.2.tree ty p.1))), ("benchmark", r.benchmark.tree)]

/-! ### What a worker sends back -/

/-- attributes of an `LPConsumption` (lp/domain.py 64-67) once the problem is solved: a number read
in a series has the type of the series -/
def LPConsumption.tree (ty : String → NumType) (x : Var → ℚ) (c : LPConsumption Var) : PyTree :=
  .lp [("cost", .num (ty "cost") c.cost), ("quantity", .num (ty "quantity") c.quantity), ("name", .str c.name),
    ("variable", .var (x c.var))]

/-- attributes of an `LPProduction` (lp/domain.py 94-97) -/
def LPProduction.tree (ty : String → NumType) (x : Var → ℚ) (c : LPProduction Var) : PyTree :=
  .lp [("name", .str c.name), ("cost", .num (ty "cost") c.cost), ("variable", .var (x c.var)),
    ("quantity", .num (ty "quantity") c.quantity)]

/-- attributes of an `LPStorage` (lp/domain.py 135-144) -/
def LPStorage.tree (ty : String → NumType) (x : Var → ℚ) (c : LPStorage Var) : PyTree :=
  .lp [("name", .str c.name), ("capacity", .num (ty "capacity") c.capacity),
    ("var_capacity", .var (x c.varCapacity)), ("flow_in", .num (ty "flow_in") c.flowIn),
    ("var_flow_in", .var (x c.varFlowIn)), ("flow_out", .num (ty "flow_out") c.flowOut),
    ("var_flow_out", .var (x c.varFlowOut)), ("cost", .num (ty "cost") c.cost),
    ("init_capacity", .num (ty "init_capacity") c.initCapacity), ("eff", .num (ty "eff") c.eff)]

/-- attributes of an `LPLink` (lp/domain.py 173-177) -/
def LPLink.tree (ty : String → NumType) (x : Var → ℚ) (c : LPLink Var) : PyTree :=
  .lp [("src", .str c.src), ("dest", .str c.dest), ("quantity", .num (ty "quantity") c.quantity),
    ("variable", .var (x c.var)), ("cost", .num (ty "cost") c.cost)]

/-- attributes of an `LPConverter` (lp/domain.py 213-220) -/
def LPConverter.tree (ty : Types) (x : Var → ℚ) (name : String) (c : LPConverter Var) : PyTree :=
  .lp [("name", .str c.name),
    ("src_ratios", .tdict (c.srcRatios.map fun p => (p.1, .num (ty (.src name p.1) "ratio") p.2))),
    ("var_flow_src", .tdict (c.varFlowSrc.map fun p => (p.1, .var (x p.2)))),
    ("dest_network", .str c.destNetwork), ("dest_node", .str c.destNode), ("var_flow_dest", .var (x c.varFlowDest)),
    ("cost", .num (ty (.conv name) "cost") c.cost), ("max", .num (ty (.conv name) "max") c.max)]

/-- attributes of an `LPNode` (lp/domain.py 253-256) -/
def LPNode.tree (ty : Types) (x : Var → ℚ) (net node : String) (n : LPNode Var) : PyTree :=
  .obj [("consumptions", .list (n.consumptions.zipIdx.map fun p => p.1.tree (ty (.cons net node p.2)) x)),
    ("productions", .list (n.productions.zipIdx.map fun p => p.1.tree (ty (.prod net node p.2)) x)),
    ("storages", .list (n.storages.zipIdx.map fun p => p.1.tree (ty (.stor net node p.2)) x)),
    ("links", .list (n.links.zipIdx.map fun p => p.1.tree (ty (.link net node p.2)) x))]

/-- attributes of an `LPTimeStep` (lp/domain.py 292-293) and of its `LPNetwork`s (280) -/
def LPTimeStep.tree (ty : Types) (x : Var → ℚ) (ts : LPTimeStep Var) : PyTree :=
  .obj [("networks", .dict (ts.networks.map fun p =>
      (p.1, .obj [("nodes", .dict (p.2.map fun q => (q.1, q.2.tree ty x p.1 q.1)))]))),
    ("converters", .dict (ts.converters.map fun p => (p.1, p.2.tree ty x p.1)))]

/-- the answer of a worker before `msgpack` (lp/optimizer.py 418-421, without the two durations) -/
def message (ty : Types) (x : Var → ℚ) (ts : List (LPTimeStep Var)) : PyTree :=
  convert (.list (ts.map (LPTimeStep.tree ty x)))

/-! ### Reading the answer -/

/-- optional argument that is a number, with its default value. Simplification: Python stores any
value; here others raise. -/
def Json.ratOr (k : String) (dflt : ℚ) : PyM Json ℚ := fun j =>
  match j with
  | .obj o => match Dict.get? o k with
    | some v => (Json.asNum v, j)
    | none => (.ok dflt, j)
  | _ => (.error .typeError, j)

/-- the value is a number -/
def Json.number : PyM Json ℚ := fun j => (j.asNum, j)

/-- `LPConsumption(**dict)` (lp/domain.py 69-71) -/
def LPConsumption.fromJson : PyM Json (LPConsumption ℚ) := do
  Json.kwargs ["quantity", "variable"] ["cost", "name"]
  let cost ← Json.ratOr "cost" 0
  let quantity ← Json.ratOr "quantity" 0
  let name ← Json.strOr "name" ""
  let var ← Json.ratOr "variable" 0
  pure ⟨cost, quantity, name, var⟩

/-- `LPProduction(**dict)` (lp/domain.py 99-101) -/
def LPProduction.fromJson : PyM Json (LPProduction ℚ) := do
  Json.kwargs ["quantity", "variable"] ["cost", "name"]
  let name ← Json.strOr "name" "in"
  let cost ← Json.ratOr "cost" 0
  let var ← Json.ratOr "variable" 0
  let quantity ← Json.ratOr "quantity" 0
  pure ⟨name, cost, var, quantity⟩

/-- `LPStorage(**dict)` (lp/domain.py 146-148) -/
def LPStorage.fromJson : PyM Json (LPStorage ℚ) := do
  Json.kwargs ["name", "capacity", "var_capacity", "flow_in", "var_flow_in", "flow_out", "var_flow_out"]
    ["cost", "init_capacity", "eff"]
  let name ← Json.strOr "name" ""
  let capacity ← Json.ratOr "capacity" 0
  let varCapacity ← Json.ratOr "var_capacity" 0
  let flowIn ← Json.ratOr "flow_in" 0
  let varFlowIn ← Json.ratOr "var_flow_in" 0
  let flowOut ← Json.ratOr "flow_out" 0
  let varFlowOut ← Json.ratOr "var_flow_out" 0
  let cost ← Json.ratOr "cost" 0
  let initCapacity ← Json.ratOr "init_capacity" 0
  let eff ← Json.ratOr "eff" (99 / 100)
  pure ⟨name, capacity, varCapacity, flowIn, varFlowIn, flowOut, varFlowOut, cost, initCapacity, eff⟩

/-- `LPLink(**dict)` (lp/domain.py 179-181) -/
def LPLink.fromJson : PyM Json (LPLink ℚ) := do
  Json.kwargs ["src", "dest", "quantity", "variable"] ["cost"]
  let src ← Json.strOr "src" ""
  let dest ← Json.strOr "dest" ""
  let quantity ← Json.ratOr "quantity" 0
  let var ← Json.ratOr "variable" 0
  let cost ← Json.ratOr "cost" 0
  pure ⟨src, dest, quantity, var, cost⟩

/-- `LPConverter.from_json` (lp/domain.py 222-231) -/
def LPConverter.fromJson : PyM Json (LPConverter ℚ) := do
  let srcRatios ← Json.overSplitItems "src_ratios" Json.number
  Json.setItem "src_ratios" .native
  let varFlowSrc ← Json.overSplitItems "var_flow_src" Json.number
  Json.setItem "var_flow_src" .native
  Json.kwargs ["name", "src_ratios", "var_flow_src", "dest_network", "dest_node", "var_flow_dest", "cost", "max"] []
  let name ← Json.strOr "name" ""
  let destNetwork ← Json.strOr "dest_network" ""
  let destNode ← Json.strOr "dest_node" ""
  let varFlowDest ← Json.ratOr "var_flow_dest" 0
  let cost ← Json.ratOr "cost" 0
  let max ← Json.ratOr "max" 0
  pure ⟨name, srcRatios, varFlowSrc, destNetwork, destNode, varFlowDest, cost, max⟩

/-- `LPNode.from_json` (lp/domain.py 258-266) -/
def LPNode.fromJson : PyM Json (LPNode ℚ) := do
  let cons ← Json.overList "consumptions" LPConsumption.fromJson
  Json.setItem "consumptions" .native
  let prods ← Json.overList "productions" LPProduction.fromJson
  Json.setItem "productions" .native
  let stors ← Json.overList "storages" LPStorage.fromJson
  Json.setItem "storages" .native
  let links ← Json.overList "links" LPLink.fromJson
  Json.setItem "links" .native
  Json.kwargs ["consumptions", "productions", "storages", "links"] []
  pure ⟨cons, prods, stors, links⟩

/-- `LPNetwork.from_json` (lp/domain.py 282-285) -/
def lpNetworkFromJson : PyM Json (Dict String (LPNode ℚ)) := do
  let nodes ← Json.overItems "nodes" LPNode.fromJson
  Json.setItem "nodes" .native
  Json.kwargs [] ["nodes"]
  pure nodes

/-- `LPTimeStep.from_json` (lp/domain.py 301-308) -/
def LPTimeStep.fromJson : PyM Json (LPTimeStep ℚ) := do
  let networks ← Json.overItems "networks" lpNetworkFromJson
  let converters ← Json.overItems "converters" LPConverter.fromJson
  pure ⟨networks, converters⟩

/-- `[LPTimeStep.from_json(v) for v in variables]` (lp/optimizer.py 463) -/
def readSteps : Json → Except PyErr (List (LPTimeStep ℚ))
  | .arr l => (Json.mapMut LPTimeStep.fromJson l).1
  | _ => .error .typeError

/-- `_solve_batch` (lp/optimizer.py 348-421), `msgpack.unpackb` and `LPTimeStep.from_json` (456-463),
with the types of the numbers of the study: `msgpack.packb` raises `TypeError` on a number it does
not know. What ortools does with numbers of each type is left out. -/
def solveBatchTyped (ty : Types) (solver : Solver) (s : Study) (scn : ℕ) :
    Except PyErr (List (LPTimeStep ℚ)) := do
  let b ← buildAll s scn
  match (message ty (solver b.2) b.1).wire with
  | none => .error .typeError
  | some j => readSteps j

/-- `solve_lp` (lp/optimizer.py 437-489) with the types of the numbers of the study. As `solveLp`; the
answers of the workers are all read first, while the code reads them one after the other: only which
error comes first may differ. -/
def solveLpTyped (ty : Types) (solver : Solver) (bench : Benchmark) (s : Study) : Except PyErr Result := do
  let outs ← (List.range s.nbScn).mapM (solveBatchTyped ty solver s)
  mapResults s outs (OutputMapper.init s bench)

end Hadar
