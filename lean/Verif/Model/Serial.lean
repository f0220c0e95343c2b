import Verif.Model.Study

/-!
# Serialisation: `hadar/optimizer/utils.py` and `to_json`/`from_json` of
`hadar/optimizer/domain/input.py`

`from_json` functions modify their argument in place. They are `PyM Json` computations: the state is
the Python object passed as argument.
-/

namespace Hadar

/-! ### `"::".join` and `.split("::")` -/

/-- `s.split("::")` on the characters of `s`, `acc` being the (reversed) current part: leftmost,
non overlapping occurrences. -/
def splitSepAux : List Char → List Char → List (List Char)
  | [], acc => [acc.reverse]
  | [c], acc => [(c :: acc).reverse]
  | c :: c' :: r, acc =>
    if c = ':' ∧ c' = ':' then acc.reverse :: splitSepAux r []
    else splitSepAux (c' :: r) (c :: acc)

/-- `tuple(k.split("::"))` (input.py 201, output.py 153, lp/domain.py 228) -/
def splitKey (k : String) : List String := (splitSepAux k.toList []).map String.ofList

/-- `"::".join(k)` (input.py 189, output.py 144, lp/domain.py 26) -/
def joinKey (k : List String) : String :=
  String.ofList (List.intercalate [':', ':'] (k.map String.toList))

/-! ### Access to decoded objects -/

namespace Json

/-- `dict[k]` -/
def item (k : String) : PyM Json Json := fun j =>
  match j with
  | .obj o => (Dict.getE o k, j)
  | .tobj _ => (.error .keyError, j)
  | _ => (.error .typeError, j)

/-- `dict[k] = v` -/
def setItem (k : String) (v : Json) : PyM Json Unit := fun j =>
  match j with
  | .obj o => (.ok (), .obj (Dict.set o k v))
  | _ => (.error .typeError, j)

/-- `[f(v) for v in l]`, where `f` works in place on `v` -/
def mapMut {β : Type} (f : PyM Json β) : List Json → Except PyErr (List β) × List Json
  | [] => (.ok [], [])
  | x :: xs =>
    match f x with
    | (.error e, x') => (.error e, x' :: xs)
    | (.ok b, x') =>
      match mapMut f xs with
      | (.error e, xs') => (.error e, x' :: xs')
      | (.ok bs, xs') => (.ok (b :: bs), x' :: xs')

/-- `{k: f(v) for k, v in d.items()}`, where `f` works in place on `v` (the values in order; the
keys are those of `d`) -/
def mapItems {K β : Type} (f : PyM Json β) :
    List (K × Json) → Except PyErr (List (K × β)) × List (K × Json)
  | [] => (.ok [], [])
  | (k, x) :: xs =>
    match f x with
    | (.error e, x') => (.error e, (k, x') :: xs)
    | (.ok b, x') =>
      match mapItems f xs with
      | (.error e, xs') => (.error e, (k, x') :: xs')
      | (.ok bs, xs') => (.ok ((k, b) :: bs), (k, x') :: xs')

/-- `[f(v) for v in dict[k]]`. Simplification: iterating over something else than a list raises. -/
def overList {β : Type} (k : String) (f : PyM Json β) : PyM Json (List β) := do
  let l ← item k
  match l with
  | .arr l => fun j =>
    let r := mapMut f l
    (r.1, (setItem k (.arr r.2) j).2)
  | _ => PyM.raise .typeError

/-- `{k: f(v) for k, v in dict[key].items()}` -/
def overItems {β : Type} (key : String) (f : PyM Json β) : PyM Json (Dict String β) := do
  let l ← item key
  match l with
  | .obj l => fun j =>
    let r := mapItems f l
    (r.1.map Dict.ofList, (setItem key (.obj r.2) j).2)
  | _ => PyM.raise .attributeError

/-- `{tuple(k.split("::")): f(v) for k, v in dict[key].items()}`: a key that is already a tuple has
no `split`. -/
def overSplitItems {β : Type} (key : String) (f : PyM Json β) :
    PyM Json (Dict (List String) β) := do
  let l ← item key
  match l with
  | .obj l => fun j =>
    let r := mapItems f l
    (r.1.map (fun l => Dict.ofList (l.map fun p => (splitKey p.1, p.2))),
      (setItem key (.obj r.2) j).2)
  | .tobj [] => PyM.lift (.ok [])
  | _ => PyM.raise .attributeError

/-- `C(**dict)` for a constructor with the given arguments: unknown or missing ones raise. -/
def kwargs (required optional : List String) : PyM Json Unit := fun j =>
  match j with
  | .obj o =>
    if (Dict.keys o).all (fun k => k ∈ required || k ∈ optional) && required.all (fun k => k ∈ (Dict.keys o))
    then (.ok (), j) else (.error .typeError, j)
  | _ => (.error .typeError, j)

/-- the value is a string. Simplification: Python stores any value; here others raise. -/
def asStr : Json → Except PyErr String
  | .str s => .ok s
  | _ => .error .typeError

/-- the value is a number; same simplification -/
def asNum : Json → Except PyErr ℚ
  | .num q => .ok q
  | _ => .error .typeError

/-- the value is a natural number; same simplification -/
def asNat : Json → Except PyErr ℕ
  | .num q => if q.den = 1 ∧ 0 ≤ q.num then .ok q.num.toNat else .error .typeError
  | _ => .error .typeError

/-- optional string argument with its default value -/
def strOr (k dflt : String) : PyM Json String := fun j =>
  match j with
  | .obj o => match Dict.get? o k with
    | some v => (asStr v, j)
    | none => (.ok dflt, j)
  | _ => (.error .typeError, j)

/-- `not x` -/
def falsy : Json → Bool
  | .null => true
  | .num q => q = 0
  | .str s => s = ""
  | .arr l => l.isEmpty
  | .obj l => l.isEmpty
  | .tobj l => l.isEmpty
  | .native => false

end Json

/-! ### Numerical values -/

/-- `NumericalValue.to_json` (utils.py 43-59 on the attributes of numeric.py 23-26) -/
def NumVal.toJson (v : NumVal) : Json :=
  .obj [("value", match v.kind with
      | .scalar q => .num q
      | .matrix a | .row a | .column a => Json.ofNd a),
    ("horizon", .num v.horizon), ("nb_scn", .num v.nbScn)]

/-- `factory.create(dict[k])`, and `dict[k]` receives the result -/
def createItem (f : Factory) (k : String) : PyM Json NumVal := do
  let j ← Json.item k
  let v ← PyM.lift (f.create (.json j))
  Json.setItem k .native
  pure v

/-- `JSON.convert` of the `cost` or `max` of a converter (utils.py 43-56) -/
def ConvField.toJson : ConvField → Json
  | .int0 => .num 0
  | .val v => v.toJson

/-! ### Study elements -/

/-- `JSON.to_json` (utils.py 58-59) on a `Consumption`; attributes in the order of input.py 45-48 -/
def Consumption.toJson (c : Consumption) : Json :=
  .obj [("cost", c.cost.toJson), ("quantity", c.quantity.toJson), ("name", .str c.name)]

/-- `Consumption.from_json` (input.py 50-54) -/
def Consumption.fromJson (f : Factory) : PyM Json Consumption := do
  let cost ← createItem f "cost"
  let quantity ← createItem f "quantity"
  Json.kwargs ["quantity", "cost"] ["name"]
  let name ← Json.strOr "name" ""
  pure ⟨cost, quantity, name⟩

/-- `Production.to_json` (utils.py 58-59, input.py 72-74) -/
def Production.toJson (c : Production) : Json :=
  .obj [("name", .str c.name), ("cost", c.cost.toJson), ("quantity", c.quantity.toJson)]

/-- `Production.from_json` (input.py 76-80) -/
def Production.fromJson (f : Factory) : PyM Json Production := do
  let cost ← createItem f "cost"
  let quantity ← createItem f "quantity"
  Json.kwargs ["quantity", "cost"] ["name"]
  let name ← Json.strOr "name" "in"
  pure ⟨name, cost, quantity⟩

/-- `Storage.to_json` (utils.py 58-59, input.py 108-114) -/
def Storage.toJson (c : Storage) : Json :=
  .obj [("name", .str c.name), ("capacity", c.capacity.toJson), ("flow_in", c.flowIn.toJson),
    ("flow_out", c.flowOut.toJson), ("cost", c.cost.toJson), ("init_capacity", .num c.initCapacity),
    ("eff", c.eff.toJson)]

/-- `Storage.from_json` (input.py 116-124) -/
def Storage.fromJson (f : Factory) : PyM Json Storage := do
  let cost ← createItem f "cost"
  let capacity ← createItem f "capacity"
  let flowIn ← createItem f "flow_in"
  let flowOut ← createItem f "flow_out"
  let eff ← createItem f "eff"
  Json.kwargs ["name", "capacity", "flow_in", "flow_out", "cost", "init_capacity", "eff"] []
  let name ← Json.strOr "name" ""
  let ic ← Json.item "init_capacity"
  let ic ← PyM.lift ic.asNum
  pure ⟨name, capacity, flowIn, flowOut, cost, ic, eff⟩

/-- `Link.to_json` (utils.py 58-59, input.py 140-142) -/
def Link.toJson (c : Link) : Json :=
  .obj [("dest", .str c.dest), ("quantity", c.quantity.toJson), ("cost", c.cost.toJson)]

/-- `Link.from_json` (input.py 144-148) -/
def Link.fromJson (f : Factory) : PyM Json Link := do
  let cost ← createItem f "cost"
  let quantity ← createItem f "quantity"
  Json.kwargs ["dest", "quantity", "cost"] []
  let dest ← Json.strOr "dest" ""
  pure ⟨dest, quantity, cost⟩

/-- `Converter.to_json` (input.py 183-191): a dict comprehension, so that sources with the same
joined key override each other. -/
def Converter.toJson (c : Converter) : Json :=
  .obj [("name", .str c.name),
    ("src_ratios", .obj (Dict.ofList (c.srcRatios.map fun p => (joinKey p.1, p.2.toJson)))),
    ("dest_network", .str c.destNetwork), ("dest_node", .str c.destNode),
    ("cost", c.cost.toJson), ("max", c.max.toJson)]

/-- `factory.create(v)` on the values of a dict (input.py 201) -/
def createValue (f : Factory) : PyM Json NumVal := fun j => (f.create (.json j), j)

/-- `Converter.from_json` (input.py 193-204) -/
def Converter.fromJson (f : Factory) : PyM Json Converter := do
  let cost ← createItem f "cost"
  let max ← createItem f "max"
  let src ← Json.overSplitItems "src_ratios" (createValue f)
  Json.setItem "src_ratios" .native
  Json.kwargs ["name", "src_ratios", "dest_network", "dest_node", "cost", "max"] []
  let name ← Json.strOr "name" ""
  let destNetwork ← Json.strOr "dest_network" ""
  let destNode ← Json.strOr "dest_node" ""
  pure ⟨name, src, destNetwork, destNode, .val cost, .val max⟩

/-- `InputNode.to_json` (utils.py 58-59, input.py 226-230) -/
def InputNode.toJson (n : InputNode) : Json :=
  .obj [("consumptions", .arr (n.consumptions.map Consumption.toJson)),
    ("productions", .arr (n.productions.map Production.toJson)),
    ("storages", .arr (n.storages.map Storage.toJson)),
    ("links", .arr (n.links.map Link.toJson))]

/-- `InputNode.from_json` (input.py 232-244) -/
def InputNode.fromJson (f : Factory) : PyM Json InputNode := do
  let cons ← Json.overList "consumptions" (Consumption.fromJson f)
  Json.setItem "consumptions" .native
  let prods ← Json.overList "productions" (Production.fromJson f)
  Json.setItem "productions" .native
  let stors ← Json.overList "storages" (Storage.fromJson f)
  Json.setItem "storages" .native
  let links ← Json.overList "links" (Link.fromJson f)
  Json.setItem "links" .native
  Json.kwargs ["consumptions", "productions", "storages", "links"] []
  pure ⟨cons, prods, stors, links⟩

/-- `InputNetwork.to_json` (utils.py 58-59, input.py 258) -/
def InputNetwork.toJson (n : InputNetwork) : Json :=
  .obj [("nodes", .obj (n.nodes.map fun p => (p.1, p.2.toJson)))]

/-- `InputNetwork.from_json` (input.py 260-266) -/
def InputNetwork.fromJson (f : Factory) : PyM Json InputNetwork := do
  let nodes ← Json.overItems "nodes" (InputNode.fromJson f)
  Json.setItem "nodes" .native
  Json.kwargs [] ["nodes"]
  pure ⟨nodes⟩

namespace Study

/-- `Study.to_json` (input.py 288-292) -/
def toJson (s : Study) : Json :=
  .obj [("version", .str s.version),
    ("networks", .obj (s.networks.map fun p => (p.1, p.2.toJson))),
    ("converters", .obj (s.converters.map fun p => (p.1, p.2.toJson))),
    ("horizon", .num s.horizon), ("nb_scn", .num s.nbScn)]

/-- the `version` argument (input.py 281), `none` when it is false. Simplification: Python stores any other value; here values
that are not strings raise. -/
def versionArg (j : Json) : Except PyErr (Option String) :=
  if j.falsy then .ok none else j.asStr.map some

/-- `Study.from_json` (input.py 294-308) after the deep copy -/
def fromJsonCopy : PyM Json Study := do
  let h ← Json.item "horizon"
  let h ← PyM.lift h.asNat
  let n ← Json.item "nb_scn"
  let n ← PyM.lift n.asNat
  let v ← Json.item "version"
  let v ← PyM.lift (versionArg v)
  let s := init h n v
  let nets ← Json.overItems "networks" (InputNetwork.fromJson s.factory)
  let convs ← Json.overItems "converters" (Converter.fromJson s.factory)
  pure { s with networks := nets, converters := convs }

/-- `Study.from_json` (input.py 294-308): works on `deepcopy(dict)` (line 296). -/
def fromJson : PyM Json Study := do
  let dict ← PyM.get
  PyM.lift (fromJsonCopy dict).1

end Study

end Hadar
