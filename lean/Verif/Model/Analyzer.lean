import Verif.Model.Frame
import Verif.Model.LP
import Mathlib.Data.List.Sort
import Mathlib.Data.List.Dedup

/-!
# `hadar/analyzer/result.py`

`np.empty` gives arrays with arbitrary content: the content is a parameter `junk` of the model (table,
column, row), over which theorems quantify.
-/

namespace Hadar

/-- content of the arrays allocated by `np.empty` -/
abbrev Junk : Type := String → String → ℕ → Cell

/-! ### Tables -/

namespace Tables

/-- `for n, net in result.networks.items(): for node in net.nodes.keys(): for i, rc in enumerate(...)`:
the elements in the order of the three loops -/
def outItems {α : Type} (r : Result) (sel : OutputNode → List α) : List (String × String × ℕ × α) :=
  r.networks.flatMap fun p => p.2.nodes.flatMap fun q =>
    (sel q.2).zipIdx.map fun e => (p.1, q.1, e.2, e.1)

/-- `study.networks[n].nodes[node].consumptions[i]` -/
def inItem {α : Type} (s : Study) (sel : InputNode → List α) (n node : String) (i : ℕ) :
    Except PyErr α := do
  let net ← Dict.getE s.networks n
  let nd ← Dict.getE net.nodes node
  match (sel nd)[i]? with
  | some a => .ok a
  | none => .error .indexError

/-- number of elements in the study (result.py 191-196) -/
def count {α : Type} (s : Study) (sel : InputNode → List α) : ℕ :=
  (s.networks.map fun p => (p.2.nodes.map fun q => (sel q.2).length).sum).sum

/-- columns `t` and `scn` (result.py 222-223 and alike) -/
def timeCols (h n : ℕ) : List (String × Fill) :=
  [("t", .nums (NumVal.tile (arange h) n)), ("scn", .nums (NumVal.repeatEach (arange n) h))]

/-- columns of the consumption table (result.py 199-208) -/
def consumptionNames : List (String × Bool) := [("cost", true), ("asked", true), ("given", true),
  ("name", false), ("node", false), ("network", false), ("t", true), ("scn", true)]

/-- what is assigned to the block of a consumption (result.py 211-224) -/
def consumptionData (s : Study) (e : String × String × ℕ × OutputConsumption) :
    Except PyErr (List (String × Fill)) := do
  let sc ← inItem s (·.consumptions) e.1 e.2.1 e.2.2.1
  pure ([("cost", .nums sc.cost.flatten), ("name", .all (.str e.2.2.2.name)),
    ("node", .all (.str e.2.1)), ("network", .all (.str e.1)),
    ("asked", .nums sc.quantity.flatten), ("given", .nums e.2.2.2.quantity.data)] ++
    timeCols s.horizon s.nbScn)

/-- `_build_consumption` (result.py 183-227) -/
def consumption (junk : Junk) (s : Study) (r : Result) : Except PyErr Frame :=
  Frame.fillBlocks (s.horizon * s.nbScn) (· + 1) (consumptionData s) (outItems r (·.consumptions)) 0
    ⟨s.nbScn * s.horizon * count s (·.consumptions), consumptionNames, junk "consumption"⟩

/-- columns of the production table (result.py 245-254) -/
def productionNames : List (String × Bool) := [("cost", true), ("avail", true), ("used", true),
  ("name", false), ("node", false), ("network", false), ("t", true), ("scn", true)]

/-- what is assigned to the block of a production (result.py 257-270) -/
def productionData (s : Study) (e : String × String × ℕ × OutputProduction) :
    Except PyErr (List (String × Fill)) := do
  let sp ← inItem s (·.productions) e.1 e.2.1 e.2.2.1
  pure ([("cost", .nums sp.cost.flatten), ("name", .all (.str e.2.2.2.name)),
    ("node", .all (.str e.2.1)), ("network", .all (.str e.1)),
    ("avail", .nums sp.quantity.flatten), ("used", .nums e.2.2.2.quantity.data)] ++
    timeCols s.horizon s.nbScn)

/-- `_build_production` (result.py 230-273) -/
def production (junk : Junk) (s : Study) (r : Result) : Except PyErr Frame :=
  Frame.fillBlocks (s.horizon * s.nbScn) (· + 1) (productionData s) (outItems r (·.productions)) 0
    ⟨s.nbScn * s.horizon * count s (·.productions), productionNames, junk "production"⟩

/-- columns of the storage table (result.py 291-307) -/
def storageNames : List (String × Bool) := [("max_capacity", true), ("capacity", true),
  ("max_flow_in", true), ("flow_in", true), ("max_flow_out", true), ("flow_out", true),
  ("cost", true), ("init_capacity", true), ("eff", true), ("name", false), ("node", false),
  ("network", false), ("t", true), ("scn", true)]

/-- what is assigned to the block of a storage (result.py 310-332) -/
def storageData (s : Study) (e : String × String × ℕ × OutputStorage) :
    Except PyErr (List (String × Fill)) := do
  let st ← inItem s (·.storages) e.1 e.2.1 e.2.2.1
  pure ([("max_capacity", .nums st.capacity.flatten), ("capacity", .nums e.2.2.2.capacity.data),
    ("max_flow_in", .nums st.flowIn.flatten), ("flow_in", .nums e.2.2.2.flowIn.data),
    ("max_flow_out", .nums st.flowOut.flatten), ("flow_out", .nums e.2.2.2.flowOut.data),
    ("cost", .nums st.cost.flatten), ("init_capacity", .all (.num st.initCapacity)),
    ("eff", .nums st.eff.flatten), ("network", .all (.str e.1)),
    ("name", .all (.str e.2.2.2.name)), ("node", .all (.str e.2.1))] ++
    timeCols s.horizon s.nbScn)

/-- `_build_storage` (result.py 276-334). `n_stor` is not incremented (312-332): every storage is
written on the first block. -/
def storage (junk : Junk) (s : Study) (r : Result) : Except PyErr Frame :=
  Frame.fillBlocks (s.horizon * s.nbScn) id (storageData s) (outItems r (·.storages)) 0
    ⟨s.horizon * s.nbScn * count s (·.storages), storageNames, junk "storage"⟩

/-- columns of the link table (result.py 353-362) -/
def linkNames : List (String × Bool) := [("cost", true), ("avail", true), ("used", true),
  ("node", false), ("dest", false), ("network", false), ("t", true), ("scn", true)]

/-- what is assigned to the block of a link (result.py 365-378) -/
def linkData (s : Study) (e : String × String × ℕ × OutputLink) :
    Except PyErr (List (String × Fill)) := do
  let sl ← inItem s (·.links) e.1 e.2.1 e.2.2.1
  pure ([("cost", .nums sl.cost.flatten), ("dest", .all (.str e.2.2.2.dest)),
    ("node", .all (.str e.2.1)), ("network", .all (.str e.1)),
    ("avail", .nums sl.quantity.flatten), ("used", .nums e.2.2.2.quantity.data)] ++
    timeCols s.horizon s.nbScn)

/-- `_build_link` (result.py 337-381) -/
def link (junk : Junk) (s : Study) (r : Result) : Except PyErr Frame :=
  Frame.fillBlocks (s.horizon * s.nbScn) (· + 1) (linkData s) (outItems r (·.links)) 0
    ⟨s.horizon * s.nbScn * count s (·.links), linkNames, junk "link"⟩

/-- `v.cost.flatten()`, `v.max.flatten()`: the integer `0` has no `flatten` -/
def convFlatten : ConvField → Except PyErr (List ℚ)
  | .int0 => .error .attributeError
  | .val v => .ok v.flatten

/-- `sum([len(v.src_ratios) for v in study.converters.values()])` (result.py 387, 417) -/
def countSources (s : Study) : ℕ := (s.converters.map fun p => p.2.srcRatios.length).sum

/-- columns of the dest converter table (result.py 390-397) -/
def destNames : List (String × Bool) := [("name", false), ("network", false), ("node", false),
  ("flow", true), ("cost", true), ("max", true)]

/-- what is assigned to the block of a converter (result.py 401-409) -/
def destData (s : Study) (r : Result) (p : String × Converter) :
    Except PyErr (List (String × Fill)) := do
  let cost ← convFlatten p.2.cost
  let max ← convFlatten p.2.max
  let o ← Dict.getE r.converters p.1
  pure ([("name", .all (.str p.2.name)), ("cost", .nums cost), ("max", .nums max),
    ("network", .all (.str p.2.destNetwork)), ("node", .all (.str p.2.destNode)),
    ("flow", .nums o.flowDest.data)] ++ timeCols s.horizon s.nbScn)

/-- `_build_dest_converter` (result.py 384-411). The table has one block per source, while one block
per converter is filled; columns `t` and `scn` are created by the first assignment. -/
def destConverter (junk : Junk) (s : Study) (r : Result) : Except PyErr Frame :=
  Frame.fillBlocks (s.horizon * s.nbScn) (· + 1) (destData s r) s.converters 0
    ⟨s.horizon * s.nbScn * countSources s, destNames, junk "dest_converter"⟩

/-- the loop over the sources of a converter (result.py 439-449): state is the table and `s` -/
def srcLoop (st : Study) (r : Result) (name : String) (v : Converter) :
    List ((List String × NumVal) × ℕ) → ℕ → Frame → Except PyErr (ℕ × Frame)
  | [], s, f => .ok (s, f)
  | (q, i) :: qs, s, f => do
    let (net, node) ← match q.1 with
      | [net, node] => Except.ok (net, node)
      | _ => Except.error PyErr.valueError
    let e := s + st.horizon * st.nbScn * (i + 1)
    let max ← convFlatten v.max
    let o ← Dict.getE r.converters name
    let flow ← Dict.getE o.flowSrc [net, node]
    let f' ← f.assignAll s e [("network", .all (.str net)), ("node", .all (.str node)),
      ("max", .nums max), ("ratio", .nums q.2.flatten), ("flow", .nums flow.data)]
    srcLoop st r name v qs e f'

/-- the loop over converters (result.py 430-450) -/
def srcConvLoop (st : Study) (r : Result) :
    List (String × Converter) → ℕ → Frame → Except PyErr Frame
  | [], _, f => .ok f
  | (name, v) :: ps, s, f => do
    let size := v.srcRatios.length
    let f' ← f.assignAll s (s + st.horizon * st.nbScn * size) [("name", .all (.str v.name)),
      ("t", .nums (NumVal.tile (arange st.horizon) (st.nbScn * size))),
      ("scn", .nums (NumVal.repeatEach (arange st.nbScn) (st.horizon * size)))]
    let r' ← srcLoop st r name v v.srcRatios.zipIdx s f'
    srcConvLoop st r ps r'.1 r'.2

/-- columns of the src converter table (result.py 420-427) -/
def srcNames : List (String × Bool) := [("name", false), ("network", false), ("node", false),
  ("ratio", true), ("flow", true), ("max", true)]

/-- `_build_src_converter` (result.py 414-456) -/
def srcConverter (junk : Junk) (s : Study) (r : Result) : Except PyErr Frame := do
  let f ← srcConvLoop s r s.converters 0
    ⟨s.horizon * s.nbScn * countSources s, srcNames, junk "src_converter"⟩
  pure { f with cell := fun c i =>
    if c = "max" then (f.cell "max" i).div (f.cell "ratio" i) else f.cell c i }

end Tables

/-- `ResultAnalyzer` (result.py 156-180) -/
structure Analyzer where
  study : Study
  result : Result
  consumption : Frame
  production : Frame
  storage : Frame
  link : Frame
  srcConverter : Frame
  destConverter : Frame

/-- `ResultAnalyzer.__init__` (result.py 161-180) -/
def Analyzer.init (junk : Junk) (s : Study) (r : Result) : Except PyErr Analyzer := do
  let consumption ← Tables.consumption junk s r
  let production ← Tables.production junk s r
  let storage ← Tables.storage junk s r
  let link ← Tables.link junk s r
  let srcConverter ← Tables.srcConverter junk s r
  let destConverter ← Tables.destConverter junk s r
  pure ⟨s, r, consumption, production, storage, link, srcConverter, destConverter⟩

/-! ### Indexes -/

/-- the classes of indexes (result.py 67-120, 142-153) -/
inductive IndexKind where
  | prod | cons | stor | link | srcConv | destConv | node | network | time | scn
  deriving DecidableEq, Repr

/-- the column of each class -/
def IndexKind.column : IndexKind → String
  | .prod | .cons | .stor | .srcConv | .destConv => "name"
  | .link => "dest"
  | .node => "node"
  | .network => "network"
  | .time => "t"
  | .scn => "scn"

/-- `Index` (result.py 22-64) -/
structure Index where
  kind : IndexKind
  all : Bool
  values : List Cell
  deriving DecidableEq, Repr

/-- what a user may give as index: nothing, a list, a tuple, a slice, or one value -/
inductive IndexArg where
  | none
  | list (l : List Cell)
  | tuple (l : List Cell)
  | slice (start stop step : Option ℤ)
  | one (c : Cell)
  deriving DecidableEq, Repr

/-- Python's `range(start, stop, step)` -/
def pyRange (start stop step : ℤ) : Except PyErr (List ℤ) :=
  if step = 0 then .error .valueError
  else
    let n := if 0 < step then (stop - start + step - 1) / step else (start - stop - step - 1) / (-step)
    .ok ((List.range n.toNat).map fun i : ℕ => start + step * (i : ℤ))

namespace Index

/-- the slice case of `IntIndex.__init__` (result.py 134-138). Line 136 tests `index.start` where
`index.stop` is meant; `range` does not take `None`. -/
def ofSlice (start stop step : Option ℤ) : Except PyErr (List Cell) := do
  let a := start.getD 0
  let c := step.getD 1
  let b ← match start with
    | none => Except.ok (-1)
    | some _ => match stop with
      | some b => Except.ok b
      | none => Except.error PyErr.typeError
  let l ← pyRange a b c
  pure (l.map fun i : ℤ => .num (i : ℚ))

/-- `Index.__init__` (result.py 27-45) and `IntIndex.__init__` (126-139). Simplification: a slice given
to an index on names raises here (the code raises when the query is run). -/
def make (kind : IndexKind) : IndexArg → Except PyErr Index
  | .none => .ok ⟨kind, true, []⟩
  | .list l => .ok ⟨kind, l.isEmpty, l⟩
  | .tuple l => .ok ⟨kind, false, l⟩
  | .one c => .ok ⟨kind, false, [c]⟩
  | .slice a b c =>
    if kind = .time ∨ kind = .scn then do
      let l ← ofSlice a b c
      pure ⟨kind, false, l⟩
    else .error .typeError

/-- `filter` (result.py 47-56) on a cell -/
def keeps (x : Index) (c : Cell) : Bool :=
  if x.all then decide (c ≠ .nan) else decide (c ∈ x.values)

/-- `is_alone` (result.py 58-64) -/
def isAlone (x : Index) : Bool := !x.all && decide (x.values.length ≤ 1)

end Index

/-! ### Queries -/

/-- a pivot table: levels of the index, then each line with its key and its values -/
structure Pivot where
  levels : List String
  lines : List (List Cell × Dict String Cell)
  deriving DecidableEq, Repr

/-- `pd.pivot_table(data=df[mask], index=names)`: lines sorted by key, mean of the float columns that are
not in the key, these columns being sorted by name, lines without any number dropped, then columns without any number dropped (`dropna`). Rows
with NaN in the key are left out (`groupby`).
Simplification: no check that `names` has no duplicate. -/
def Frame.pivot (f : Frame) (names : List String) (mask : ℕ → Bool) : Pivot :=
  let idx := (List.range f.size).filter fun i => mask i && names.all fun c => decide (f.cell c i ≠ .nan)
  let key := fun i => names.map fun c => f.cell c i
  let keys := ((idx.map key).dedup).insertionSort (fun a b => Cell.keyLe a b = true)
  let cols := ((f.names.filter fun c => c.2 ∧ c.1 ∉ names).map Prod.fst).insertionSort (· ≤ ·)
  let lines := keys.map fun k =>
    (k, cols.map fun c => (c, Cell.mean ((idx.filter fun i => key i = k).map fun i => f.cell c i)))
  let lines := lines.filter fun l => l.2 = [] ∨ ∃ v ∈ l.2, v.2 ≠ .nan
  ⟨names, lines.map fun l => (l.1, l.2.filter fun v => decide (∃ l' ∈ lines, ∃ v' ∈ l'.2, v'.1 = v.1 ∧ v'.2 ≠ .nan))⟩

/-- `_remove_useless_index_level` (result.py 459-474): `df.loc[k]` keeps the lines whose first key is
`k`, without this key. The recursion on `indexes[1:]` reads `indexes[0]` of an empty list when all
levels have been removed. -/
def Pivot.removeUseless (pt : Pivot) : List Index → Except PyErr Pivot
  | [] => .error .indexError
  | x :: xs =>
    if x.isAlone then
      match x.values with
      | [] => .error .indexError
      | k :: _ =>
        if pt.lines.any (fun l => decide (l.1.head? = some k)) then
          Pivot.removeUseless ⟨pt.levels.tail,
            (pt.lines.filter fun l => decide (l.1.head? = some k)).map fun l => (l.1.tail, l.2)⟩ xs
        else .ok pt
    else .ok pt

/-- `_pivot` (result.py 477-488): a missing column raises `KeyError` -/
def Frame.query (f : Frame) (indexes : List Index) : Except PyErr Pivot :=
  if ∀ x ∈ indexes, f.Has x.kind.column then
    (f.pivot (indexes.map fun x => x.kind.column)
      (fun i => indexes.all fun x => x.keeps (f.cell x.kind.column i))).removeUseless indexes
  else .error .keyError

/-- `check_index` (result.py 491-498) -/
def checkIndex (indexes : List Index) (k : IndexKind) : Bool := indexes.any fun x => x.kind = k

/-- `_assert_index` (result.py 501-512) -/
def assertIndex (indexes : List Index) (k : IndexKind) : Except PyErr Unit :=
  if checkIndex indexes k then .ok () else .error .valueError

/-- `filter` (result.py 514-539); `none` is Python's `None`, when no kind of element is given -/
def Analyzer.filter (a : Analyzer) (indexes : List Index) : Except PyErr (Option Pivot) := do
  assertIndex indexes .time
  assertIndex indexes .node
  assertIndex indexes .network
  assertIndex indexes .scn
  if checkIndex indexes .cons then (a.consumption.query indexes).map some
  else if checkIndex indexes .prod then (a.production.query indexes).map some
  else if checkIndex indexes .stor then (a.storage.query indexes).map some
  else if checkIndex indexes .link then (a.link.query indexes).map some
  else if checkIndex indexes .srcConv then (a.srcConverter.query indexes).map some
  else if checkIndex indexes .destConv then (a.destConverter.query indexes).map some
  else pure none

/-! ### Fluent API (result.py 753-808) -/

/-- `NetworkFluentAPISelector` (result.py 753-792): `initial` is the list of indexes when the object was
created, which decides what methods it has; `indexes` is its current list -/
structure Selector where
  initial : List Index
  indexes : List Index
  deriving DecidableEq, Repr

/-- the kinds of elements -/
def IndexKind.isElement : IndexKind → Bool
  | .node | .network | .time | .scn => false
  | _ => true

/-- the object has the method that adds this kind of index (result.py 770-792) -/
def Selector.offers (q : Selector) (k : IndexKind) : Bool :=
  match k with
  | .network => false
  | .node | .time | .scn => !checkIndex q.initial k
  | _ => !(q.initial.any fun x => x.kind.isElement)

/-- what a call on a selector returns -/
inductive Reply where
  | selector (q : Selector)
  | table (t : Option Pivot)
  deriving DecidableEq, Repr

/-- `FULL_DESCRIPTION` (result.py 764) -/
def fullDescription : ℕ := 5

/-- a call on a selector (result.py 778-792) then `_append` (797-808): the list of the selector is
extended in place, the new selector has a deep copy of it -/
def Selector.call (a : Analyzer) (k : IndexKind) (arg : IndexArg) : PyM Selector Reply := fun q =>
  if q.offers k then
    match Index.make k arg with
    | .error e => (.error e, q)
    | .ok x =>
      let indexes := q.indexes ++ [x]
      let q' := { q with indexes := indexes }
      if indexes.length = fullDescription then
        ((a.filter indexes).map .table, q')
      else (.ok (.selector ⟨indexes, indexes⟩), q')
  else (.error .attributeError, q)

/-- `analyzer.network(name)` (result.py 541-547) -/
def Analyzer.network (_a : Analyzer) (arg : IndexArg) : Except PyErr Selector := do
  let x ← Index.make .network arg
  pure ⟨[x], [x]⟩

/-- a chain of calls `q.f(..).g(..)...`; a table has no such method -/
def Selector.chain (a : Analyzer) (q : Selector) : List (IndexKind × IndexArg) → Except PyErr Reply
  | [] => .ok (.selector q)
  | (k, arg) :: rest =>
    match (Selector.call a k arg q).1 with
    | .error e => .error e
    | .ok (.selector q') => Selector.chain a q' rest
    | .ok (.table t) => if rest = [] then .ok (.table t) else .error .attributeError

/-- `analyzer.network(name).f(..).g(..)...` -/
def Analyzer.ask (a : Analyzer) (network : IndexArg) (calls : List (IndexKind × IndexArg)) :
    Except PyErr Reply := do
  let q ← a.network network
  q.chain a calls

/-! ### Aggregations -/

namespace Analyzer

/-- the last part of `get_elements_inside` (result.py 574-590) -/
def nodeElements (a : Analyzer) (network node : String) : Except PyErr (List ℕ) := do
  let net ← Dict.getE a.study.networks network
  let n ← Dict.getE net.nodes node
  pure [n.consumptions.length, n.productions.length, n.storages.length, n.links.length,
    (a.study.converters.filter fun p => Dict.contains p.2.srcRatios [network, node]).length,
    (a.study.converters.filter fun p =>
      network = p.2.destNetwork ∧ node = p.2.destNode).length]

/-- `size += ...` -/
def addCounts (x y : List ℕ) : List ℕ := List.zipWith (· + ·) x y

/-- `get_elements_inside(network=network)` (result.py 565-568). An empty name is false: the code goes on
to `self.study.networks[""].nodes[None]`, which raises `KeyError`. -/
def networkElements (a : Analyzer) (network : String) : Except PyErr (List ℕ) :=
  if network = "" then .error .keyError
  else do
    let net ← Dict.getE a.study.networks network
    net.nodes.foldlM (fun size q => do
      let x ← a.nodeElements network q.1
      pure (addCounts size x)) [0, 0, 0, 0, 0, 0]

/-- `get_elements_inside` (result.py 549-590) -/
def elementsInside (a : Analyzer) (node network : Option String) : Except PyErr (List ℕ) :=
  match node, network with
  | none, none => a.study.networks.foldlM (fun size p => do
      let x ← a.networkElements p.1
      pure (addCounts size x)) [0, 0, 0, 0, 0, 0]
  | none, some g => a.networkElements g
  | some d, none => if d = "" then .error .keyError else a.nodeElements "default" d
  | some d, some g => a.nodeElements g d

/-- the position of a level -/
def level (pt : Pivot) (name : String) : Except PyErr ℕ :=
  if name ∈ pt.levels then .ok (pt.levels.idxOf name) else .error .keyError

/-- `values.groupby(axis=0, level=("scn", "t")).sum().sort_index(...).values.reshape(n, h)`
(result.py 630-636 and alike), `value` being computed from the columns of each line -/
def costOf (a : Analyzer) (pt : Pivot) (value : (String → Cell) → Cell) : Except PyErr NdArray := do
  let s ← level pt "scn"
  let t ← level pt "t"
  reshape a.study.nbScn a.study.horizon ((groupSum (pt.lines.map fun l =>
    (l.1.getD s .nan, l.1.getD t .nan, value fun c => (Dict.get? l.2 c).getD .nan))).map Prod.snd)

/-- `None` or a name, given as filter -/
def nameArg : Option String → IndexArg
  | none => .none
  | some x => .one (.str x)

/-- one of the five parts of `get_cost`: the query, the product, the sum -/
def costPart (a : Analyzer) (node network : Option String) (kind : IndexKind)
    (value : (String → Cell) → Cell) (n : ℕ) (cost : NdArray) : Except PyErr NdArray :=
  if n = 0 then .ok cost
  else do
    let reply ← a.ask (nameArg network)
      [(.node, nameArg node), (.scn, .none), (.time, .none), (kind, .none)]
    match reply with
    | .table (some pt) => do
      let c ← a.costOf pt value
      NdArray.zip (· + ·) cost c
    | _ => .error .typeError

/-- `"default" if node and network is None else network` (result.py 627): an empty name is false -/
def orDefault : Option String → Option String → Option String
  | some d, none => if d = "" then none else some "default"
  | _, g => g

/-- `get_cost` (result.py 617-678) -/
def getCost (a : Analyzer) (node network : Option String) : Except PyErr NdArray := do
  let n ← a.elementsInside node network
  let network := orDefault node network
  let cost := NdArray.zeros a.study.nbScn a.study.horizon
  let cost ← a.costPart node network .cons
    (fun v => ((v "asked").sub (v "given")).mul (v "cost")) (n.getD 0 0) cost
  let cost ← a.costPart node network .prod (fun v => (v "used").mul (v "cost")) (n.getD 1 0) cost
  let cost ← a.costPart node network .stor (fun v => (v "capacity").mul (v "cost")) (n.getD 2 0) cost
  let cost ← a.costPart node network .link (fun v => (v "used").mul (v "cost")) (n.getD 3 0) cost
  a.costPart node network .destConv (fun v => (v "flow").mul (v "cost")) (n.getD 5 0) cost

/-- the rows of a table where a mask holds: `scn`, `t` and a column -/
def select (f : Frame) (mask : ℕ → Bool) (col : String) : List (Cell × Cell × Cell) :=
  ((List.range f.size).filter mask).map fun i => (f.cell "scn" i, f.cell "t" i, f.cell col i)

/-- one half of `get_balance` (result.py 602-607, 609-614): nothing happens when there is no row -/
def balancePart (a : Analyzer) (col node network : String) (f : ℚ → ℚ → ℚ) (balance : NdArray) :
    Except PyErr NdArray :=
  let sums := groupSum (select a.link
    (fun i => a.link.cell col i = .str node && a.link.cell "network" i = .str network) "used")
  if sums.length > 0 then do
    let x ← reshape a.study.nbScn a.study.horizon (sums.map Prod.snd)
    NdArray.zip f balance x
  else .ok balance

/-- `get_balance` (result.py 592-615) -/
def getBalance (a : Analyzer) (node network : String) : Except PyErr NdArray := do
  let balance := NdArray.zeros a.study.nbScn a.study.horizon
  let balance ← a.balancePart "dest" node network (· - ·) balance
  a.balancePart "node" node network (· + ·) balance

/-- `df[df["network"] == network].drop(...).pivot_table(index="scn", columns="t", aggfunc=np.sum).values`
then `fill_width_zeros` (result.py 688-697 and alike), `col` being the only float column left. The matrix
has one row per `scn` and one column per `t`. Simplification: a missing `(scn, t)` raises (pandas puts
NaN). -/
def racPart (a : Analyzer) (f : Frame) (network col : String) : Except PyErr NdArray :=
  let sums := groupSum (select f (fun i => f.cell "network" i = .str network) col)
  if sums.length = 0 then .ok (NdArray.zeros a.study.nbScn a.study.horizon)
  else
    let scns := (sums.map fun x => x.1.1).dedup.insertionSort (fun a b => a.le b = true)
    let ts := (sums.map fun x => x.1.2).dedup.insertionSort (fun a b => a.le b = true)
    do
    let vals ← (scns.flatMap fun s => ts.map fun t => (s, t)).mapM fun k => Dict.getE sums k
    reshape scns.length ts.length vals

/-- `get_rac` (result.py 680-723) -/
def getRac (a : Analyzer) (network : String) : Except PyErr NdArray := do
  let prodUsed ← a.racPart a.production network "used"
  let prodAvail ← a.racPart a.production network "avail"
  let consAsked ← a.racPart a.consumption network "asked"
  let consGiven ← a.racPart a.consumption network "given"
  let x ← NdArray.zip (· - ·) prodAvail prodUsed
  let y ← NdArray.zip (· - ·) consAsked consGiven
  NdArray.zip (· - ·) x y

/-- `nodes` (result.py 743-750) -/
def nodes (a : Analyzer) (network : String) : Except PyErr (List String) := do
  let net ← Dict.getE a.result.networks network
  pure (Dict.keys net.nodes)

end Analyzer

end Hadar
