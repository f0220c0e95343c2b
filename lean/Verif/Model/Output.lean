import Verif.Model.Serial

/-!
# `hadar/optimizer/domain/output.py`: results and their serialisation
-/

namespace Hadar

/-- `OutputConsumption` (output.py 26-39) -/
structure OutputConsumption where
  quantity : NdArray
  name : String
  deriving DecidableEq, Repr

/-- `OutputProduction` (output.py 46-59) -/
structure OutputProduction where
  name : String
  quantity : NdArray
  deriving DecidableEq, Repr

/-- `OutputStorage` (output.py 66-89) -/
structure OutputStorage where
  name : String
  capacity : NdArray
  flowIn : NdArray
  flowOut : NdArray
  deriving DecidableEq, Repr

/-- `OutputLink` (output.py 96-109) -/
structure OutputLink where
  dest : String
  quantity : NdArray
  deriving DecidableEq, Repr

/-- `OutputConverter` (output.py 116-136) -/
structure OutputConverter where
  name : String
  flowSrc : Dict (List String) NdArray
  flowDest : NdArray
  deriving DecidableEq, Repr

/-- `OutputNode` (output.py 158-181) -/
structure OutputNode where
  consumptions : List OutputConsumption
  productions : List OutputProduction
  storages : List OutputStorage
  links : List OutputLink
  deriving DecidableEq, Repr

/-- `OutputNetwork` (output.py 219-229) -/
structure OutputNetwork where
  nodes : Dict String OutputNode
  deriving DecidableEq, Repr

/-- `Benchmark` (output.py 237-248) -/
structure Benchmark where
  modeler : List ℚ
  solver : List ℚ
  mapper : ℚ
  total : ℚ
  deriving DecidableEq, Repr

/-- `Result` (output.py 255-272) -/
structure Result where
  networks : Dict String OutputNetwork
  converters : Dict String OutputConverter
  benchmark : Benchmark
  deriving DecidableEq, Repr

/-- `OutputNode.build_like_input` (output.py 183-203) -/
def OutputNode.buildLikeInput (input : InputNode) (fill : NdArray) : OutputNode where
  consumptions := input.consumptions.map fun i => ⟨fill, i.name⟩
  productions := input.productions.map fun i => ⟨i.name, fill⟩
  storages := input.storages.map fun i => ⟨i.name, fill, fill, fill⟩
  links := input.links.map fun i => ⟨i.dest, fill⟩

/-! ### Serialisation -/

/-- `np.array(dict[k])`, the argument passed through `**dict` -/
def Json.array (k : String) : PyM Json NdArray := do
  let j ← Json.item k
  PyM.lift j.toNd

/-- utils.py 58-59 -/
def OutputConsumption.toJson (c : OutputConsumption) : Json :=
  .obj [("quantity", Json.ofNd c.quantity), ("name", .str c.name)]

/-- output.py 41-43 -/
def OutputConsumption.fromJson : PyM Json OutputConsumption := do
  Json.kwargs ["quantity"] ["name"]
  let q ← Json.array "quantity"
  let name ← Json.strOr "name" ""
  pure ⟨q, name⟩

/-- utils.py 58-59 -/
def OutputProduction.toJson (c : OutputProduction) : Json :=
  .obj [("name", .str c.name), ("quantity", Json.ofNd c.quantity)]

/-- output.py 61-63 -/
def OutputProduction.fromJson : PyM Json OutputProduction := do
  Json.kwargs ["quantity"] ["name"]
  let q ← Json.array "quantity"
  let name ← Json.strOr "name" "in"
  pure ⟨name, q⟩

/-- utils.py 58-59 -/
def OutputStorage.toJson (c : OutputStorage) : Json :=
  .obj [("name", .str c.name), ("capacity", Json.ofNd c.capacity), ("flow_in", Json.ofNd c.flowIn),
    ("flow_out", Json.ofNd c.flowOut)]

/-- output.py 91-93 -/
def OutputStorage.fromJson : PyM Json OutputStorage := do
  Json.kwargs ["name", "capacity", "flow_in", "flow_out"] []
  let name ← Json.strOr "name" ""
  let capacity ← Json.array "capacity"
  let flowIn ← Json.array "flow_in"
  let flowOut ← Json.array "flow_out"
  pure ⟨name, capacity, flowIn, flowOut⟩

/-- utils.py 58-59 -/
def OutputLink.toJson (c : OutputLink) : Json :=
  .obj [("dest", .str c.dest), ("quantity", Json.ofNd c.quantity)]

/-- output.py 111-113 -/
def OutputLink.fromJson : PyM Json OutputLink := do
  Json.kwargs ["dest", "quantity"] []
  let dest ← Json.strOr "dest" ""
  let q ← Json.array "quantity"
  pure ⟨dest, q⟩

/-- output.py 138-146 -/
def OutputConverter.toJson (c : OutputConverter) : Json :=
  .obj [("name", .str c.name),
    ("flow_src", .obj (Dict.ofList (c.flowSrc.map fun p => (joinKey p.1, Json.ofNd p.2)))),
    ("flow_dest", Json.ofNd c.flowDest)]

/-- output.py 148-155: `dict["flow_src"]` receives a dict with tuple keys, its values are taken as they are and converted by
the constructor (134-136) -/
def OutputConverter.fromJson : PyM Json OutputConverter := do
  let src ← Json.overSplitItems "flow_src" PyM.get
  Json.setItem "flow_src" (.tobj src)
  Json.kwargs ["name", "flow_src", "flow_dest"] []
  let name ← Json.strOr "name" ""
  let src ← PyM.lift (src.mapM fun p => p.2.toNd.map fun a => (p.1, a))
  let dest ← Json.array "flow_dest"
  pure ⟨name, src, dest⟩

/-- utils.py 58-59 -/
def OutputNode.toJson (n : OutputNode) : Json :=
  .obj [("consumptions", .arr (n.consumptions.map OutputConsumption.toJson)),
    ("productions", .arr (n.productions.map OutputProduction.toJson)),
    ("storages", .arr (n.storages.map OutputStorage.toJson)),
    ("links", .arr (n.links.map OutputLink.toJson))]

/-- a Python list of objects that are not plain JSON -/
def Json.natives {α : Type} (l : List α) : Json := .arr (l.map fun _ => .native)

/-- output.py 205-216 -/
def OutputNode.fromJson : PyM Json OutputNode := do
  let cons ← Json.overList "consumptions" OutputConsumption.fromJson
  Json.setItem "consumptions" (Json.natives cons)
  let prods ← Json.overList "productions" OutputProduction.fromJson
  Json.setItem "productions" (Json.natives prods)
  let stors ← Json.overList "storages" OutputStorage.fromJson
  Json.setItem "storages" (Json.natives stors)
  let links ← Json.overList "links" OutputLink.fromJson
  Json.setItem "links" (Json.natives links)
  Json.kwargs ["consumptions", "productions", "storages", "links"] []
  pure ⟨cons, prods, stors, links⟩

/-- utils.py 58-59 -/
def OutputNetwork.toJson (n : OutputNetwork) : Json :=
  .obj [("nodes", .obj (n.nodes.map fun p => (p.1, p.2.toJson)))]

/-- output.py 231-234 -/
def OutputNetwork.fromJson : PyM Json OutputNetwork := do
  let nodes ← Json.overItems "nodes" OutputNode.fromJson
  Json.setItem "nodes" (.obj (nodes.map fun p => (p.1, .native)))
  Json.kwargs ["nodes"] []
  pure ⟨nodes⟩

/-- utils.py 58-59 -/
def Benchmark.toJson (b : Benchmark) : Json :=
  .obj [("modeler", .arr (b.modeler.map .num)), ("solver", .arr (b.solver.map .num)),
    ("mapper", .num b.mapper), ("total", .num b.total)]

/-- a list of numbers -/
def Json.asNums : Json → Except PyErr (List ℚ)
  | .arr l => l.mapM Json.asNum
  | _ => .error .typeError

/-- `x or []` where `x` is an optional argument, `None` by default (output.py 241-246). Simplification: Python stores any
other value; here others raise. -/
def Json.numsOr (k : String) : PyM Json (List ℚ) := fun j =>
  match j with
  | .obj o => match Dict.get? o k with
    | some v => if v.falsy then (.ok [], j) else (v.asNums, j)
    | none => (.ok [], j)
  | _ => (.error .typeError, j)

/-- optional number, 0 by default (output.py 241-248); same simplification -/
def Json.numOr (k : String) : PyM Json ℚ := fun j =>
  match j with
  | .obj o => match Dict.get? o k with
    | some v => (v.asNum, j)
    | none => (.ok 0, j)
  | _ => (.error .typeError, j)

/-- output.py 250-252 -/
def Benchmark.fromJson : PyM Json Benchmark := do
  Json.kwargs [] ["modeler", "solver", "mapper", "total"]
  let m ← Json.numsOr "modeler"
  let s ← Json.numsOr "solver"
  let mp ← Json.numOr "mapper"
  let t ← Json.numOr "total"
  pure ⟨m, s, mp, t⟩

namespace Result

/-- utils.py 58-59 -/
def toJson (r : Result) : Json :=
  .obj [("networks", .obj (r.networks.map fun p => (p.1, p.2.toJson))),
    ("converters", .obj (r.converters.map fun p => (p.1, p.2.toJson))),
    ("benchmark", r.benchmark.toJson)]

/-- a nested decoder applied to `dict[k]` -/
def onItem {α : Type} (k : String) (f : PyM Json α) : PyM Json α := fun d =>
  match Json.item k d with
  | (.ok j, d) => ((f j).1, (Json.setItem k (f j).2 d).2)
  | (.error e, d) => (.error e, d)

/-- `Result.from_json` (output.py 274-284): no copy, the nested objects are modified in place. -/
def fromJson : PyM Json Result := do
  let nets ← Json.overItems "networks" OutputNetwork.fromJson
  let convs ← Json.overItems "converters" OutputConverter.fromJson
  let b ← onItem "benchmark" Benchmark.fromJson
  pure ⟨nets, convs, b⟩

end Result

end Hadar
