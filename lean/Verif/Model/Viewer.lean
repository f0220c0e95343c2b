import Verif.Model.Analyzer

/-!
# Charts (viewer/abc.py, viewer/html.py)

A chart is modelled by the data drawn: the points, areas and arrows given to plotly. Titles are in Model/Titles;
colours of maps and bars of storages in Model/Marks; other colours, units and the labels of the time axis are left out. `t` and `scn` are
integers, as numpy and the analyzer take them. Floats are rationals.
-/

namespace Hadar

namespace Viewer

/-- a line of a table: its key and its values -/
abbrev Line : Type := List Cell × Dict String Cell

/-- the value of a line in a column. Simplification: a cell that is not a number raises (numpy would go on
with NaN). -/
def Line.value (l : Line) (c : String) : Except PyErr ℚ :=
  match Dict.get? l.2 c with
  | some (.num q) => .ok q
  | some _ => .error .typeError
  | none => .error .keyError

/-- `df[c].values`: a pivot table without lines has no columns (`dropna`), and `df.loc[k]` raises `KeyError`
without lines -/
def column (lines : List Line) (c : String) : Except PyErr (List ℚ) :=
  if lines = [] then .error .keyError else lines.mapM fun l => Line.value l c

/-- `df.sort_index(ascending=True)` -/
def sortIndex (lines : List Line) : List Line :=
  lines.insertionSort fun a b => Cell.keyLe a.1 b.1 = true

/-- `df.loc[k]`: lines whose first key is `k`, without this key -/
def loc (lines : List Line) (k : Cell) : List Line :=
  (lines.filter fun l => decide (l.1.head? = some k)).map fun l => (l.1.tail, l.2)

/-- `index.unique()`: in the order of first appearance -/
def unique {α : Type} [DecidableEq α] (l : List α) : List α := l.reverse.dedup.reverse

/-- `index.get_level_values(name)` -/
def levelValues (pt : Pivot) (name : String) : Except PyErr (List Cell) := do
  let i ← Analyzer.level pt name
  pure (pt.lines.map fun l => l.1.getD i .nan)

/-- the calls on the analyzer; the reply must be a table -/
def query (a : Analyzer) (network : String) (calls : List (IndexKind × IndexArg)) : Except PyErr Pivot := do
  match ← a.ask (.one (.str network)) calls with
  | .table (some pt) => pure pt
  | _ => .error .attributeError

/-- `m[i]`, `m[i, :]` on a matrix -/
def rowAt (m : NdArray) (i : ℤ) : Except PyErr (List ℚ) :=
  match m.shape with
  | [n, h] => do
    let i ← NdArray.axisIndex n i
    pure ((m.data.drop (i * h)).take h)
  | _ => .error .typeError

/-- `m[:, j]` on a matrix -/
def columnAt (m : NdArray) (j : ℤ) : Except PyErr (List ℚ) :=
  match m.shape with
  | [n, h] => do
    let j ← NdArray.axisIndex h j
    pure ((List.range n).map fun i => m.data.getD (i * h + j) 0)
  | _ => .error .typeError

/-- Python's `max` on a list -/
def pyMax : List ℚ → Except PyErr ℚ
  | [] => .error .valueError
  | x :: xs => .ok (xs.foldl max x)

/-- Python's `min` on a list -/
def pyMin : List ℚ → Except PyErr ℚ
  | [] => .error .valueError
  | x :: xs => .ok (xs.foldl min x)

/-! ### Charts of html.py -/

/-- `monotone` (html.py 88-102): `y.sort()`, `y[::-1]`, `np.linspace(0, 100, y.size)`; the points drawn -/
def monotoneChart (y : List ℚ) : List (ℚ × ℚ) :=
  let y := (y.insertionSort (· ≤ ·)).reverse
  let x := (List.range y.length).map fun i : ℕ => (i : ℚ) * (100 / ((y.length : ℚ) - 1))
  x.zip y

/-- `gaussian` (html.py 104-156): abscissas of the green points and of the red points. `np.min` of an empty
array raises, as does a mask of another size. The curve and the ordinates are in `gaussianDrawing`
(Model/Drawing). -/
def gaussianChart (rac qt : List ℚ) : Except PyErr (List ℚ × List ℚ) :=
  if qt = [] then .error .valueError
  else if rac.length = qt.length then
    .ok (((qt.zip rac).filter fun p => decide (0 ≤ p.2)).map Prod.fst,
      ((qt.zip rac).filter fun p => decide (p.2 < 0)).map Prod.fst)
  else .error .indexError

/-- `np.cumsum` -/
def cumsum (acc : ℚ) : List ℚ → List ℚ
  | [] => []
  | x :: xs => (acc + x) :: cumsum (acc + x) xs

/-- `stack += data` then a copy of `stack`, for each entry (html.py 195-206, 210-214). Simplification: data of
length 1, which numpy would repeat, raises as other wrong lengths do. -/
def stackUp (acc : List ℚ) : List (Cell × List ℚ) → Except PyErr (List (Cell × List ℚ))
  | [] => .ok []
  | (name, data) :: rest =>
    if data.length = acc.length then do
      let stack := List.zipWith (· + ·) acc data
      let r ← stackUp stack rest
      pure ((name, stack) :: r)
    else .error .valueError

/-- what is drawn by `stack` (html.py 186-230): boundaries of the areas, then lines, top line first -/
structure StackChart where
  areas : List (Cell × List ℚ)
  lines : List (Cell × List ℚ)
  deriving DecidableEq, Repr

/-- `stack` (html.py 186-230); `h` is the length of the time index -/
def stackChart (h : ℕ) (areas lines : List (Cell × List ℚ)) : Except PyErr StackChart := do
  let a ← stackUp (List.replicate h 0) areas
  let l ← stackUp (List.replicate h 0) lines
  pure ⟨a, l.reverse⟩

/-- `sdt` (html.py 233-236): `np.max` and `np.min` of an empty array raise -/
def sdt (x : List ℚ) : Except PyErr (List ℚ) := do
  let m ← pyMax (x.filter fun q => decide (0 < q))
  let x := x.map fun q => if 0 < q then q / m else q
  let m ← pyMin (x.filter fun q => decide (q < 0))
  pure (x.map fun q => if q < 0 then q / -m else q)

/-- what is drawn by `matrix` (html.py 232-258): colours and the texts shown over the cells -/
structure MatrixChart where
  shape : List ℕ
  color : List ℚ
  text : List ℚ
  deriving DecidableEq, Repr

/-- `matrix` (html.py 232-258) -/
def matrixChart (data : NdArray) : Except PyErr MatrixChart := do
  let z ← sdt data.data
  pure ⟨data.shape, z, data.data⟩

/-- what is drawn by `map_exchange` (html.py 260-306): nodes with their values, arrows, colour limit -/
structure MapChart where
  nodes : Dict String ℚ
  arrows : Dict (Cell × Cell) ℚ
  limit : ℚ
  deriving DecidableEq, Repr

/-- `map_exchange` (html.py 260-306): coordinates must be known. Without any node, `node_coords[:, 0]`
raises. -/
def mapChart (coord : Option (Dict String (ℚ × ℚ))) (nodes : Dict String ℚ) (arrows : Dict (Cell × Cell) ℚ)
    (limit : ℚ) : Except PyErr MapChart :=
  match coord with
  | none => .error .valueError
  | some coord => do
    let known := fun c : Cell => match c with
      | .str n => Dict.contains coord n
      | _ => false
    if nodes.all fun p => known (.str p.1) then
      if arrows.all fun p => known p.1.1 && known p.1.2 then
        if nodes.isEmpty then .error .indexError else .ok ⟨nodes, arrows, limit⟩
      else .error .keyError
    else .error .keyError

/-- `timeline` (html.py 61-86): one curve per scenario; `1 / scenarios.size` raises without any -/
def timelineChart (pt : Pivot) (col : String) : Except PyErr (List (Cell × List ℚ)) := do
  let scns ← levelValues pt "scn"
  let scns := unique scns
  if scns.length = 0 then .error .zeroDivisionError
  else scns.mapM fun k => do
    let y ← column (loc pt.lines k) col
    pure (k, y)

/-! ### Selectors of abc.py -/

/-- `not_both` (abc.py 114-117) -/
def notBoth (t scn : Option ℤ) : Except PyErr Unit :=
  if t.isSome ∧ scn.isSome then .error .valueError else .ok ()

/-- What `ConsumptionFluentAPISelector`, `ProductionFluentAPISelector`, `StorageFluentAPISelector`,
`LinkFluentAPISelector`, `SrcConverterFluentAPISelector` and `DestConverterFluentAPISelector` hold: the element
and the column shown (`flow` for converters; not used for storages) -/
structure Item where
  network : String
  node : String
  kind : IndexKind
  name : String
  col : String
  deriving DecidableEq, Repr

/-- `self.agg.network(self.network).node(self.node).consumption(self.name)...` and alike -/
def Item.ask (a : Analyzer) (x : Item) (calls : List (IndexKind × IndexArg)) : Except PyErr Pivot :=
  query a x.network ((.node, .one (.str x.node)) :: (x.kind, .one (.str x.name)) :: calls)

/-- the values shown by `monotone`: a column, or for storages what comes in less what goes out (abc.py 421, 436) -/
def Item.shown (x : Item) (pt : Pivot) : Except PyErr (List ℚ) :=
  if x.kind = .stor then do
    let lines := sortIndex pt.lines
    let i ← column lines "flow_in"
    let o ← column lines "flow_out"
    pure (List.zipWith (· - ·) i o)
  else column pt.lines x.col

/-- `None` or an index, given as filter -/
def indexArg : Option ℤ → IndexArg
  | none => .none
  | some i => .one (.num i)

/-- `timeline` (abc.py 138-151 and alike) -/
def Item.timeline (a : Analyzer) (x : Item) : Except PyErr (List (Cell × List ℚ)) := do
  let pt ← x.ask a [(.scn, .none), (.time, .none)]
  timelineChart pt x.col

/-- `monotone` (abc.py 153-192 and alike; 402-443 for storages). With neither `t` nor `scn`, `y` is not
bound. -/
def Item.monotone (a : Analyzer) (x : Item) (t scn : Option ℤ) : Except PyErr (List (ℚ × ℚ)) := do
  notBoth t scn
  let pt ← match t, scn with
    | some t, _ => x.ask a [(.time, .one (.num t)), (.scn, .none)]
    | none, some k => x.ask a [(.scn, .one (.num k)), (.time, .none)]
    | none, none => .error .nameError
  let y ← x.shown pt
  pure (monotoneChart y)

/-- `gaussian` of consumptions, productions and links (abc.py 194-236 and alike), given the method
`plotting.gaussian` (`draw`); with neither `t` nor `scn` the title cannot be made -/
def Item.gaussianWith {β : Type} (draw : List ℚ → List ℚ → Except PyErr β) (a : Analyzer) (x : Item)
    (t scn : Option ℤ) : Except PyErr β := do
  notBoth t scn
  match t, scn with
  | none, scn => do
    let pt ← x.ask a [(.scn, indexArg scn), (.time, .none)]
    let qt ← column pt.lines x.col
    let rac ← a.getRac x.network
    match scn with
    | none => .error .typeError
    | some k => do
      let rac ← rowAt rac k
      draw rac qt
  | some t, _ => do
    let pt ← x.ask a [(.time, .one (.num t)), (.scn, .none)]
    let qt ← column pt.lines x.col
    let rac ← a.getRac x.network
    let rac ← columnAt rac t
    draw rac qt

/-- `gaussian` of consumptions, productions and links: abscissas of the points -/
def Item.gaussian (a : Analyzer) (x : Item) (t scn : Option ℤ) : Except PyErr (List ℚ × List ℚ) :=
  x.gaussianWith gaussianChart a t scn

/-- `gaussian` of converters (abc.py 617-656, 734-773): without `t`, all times and all scenarios are asked for
(`time(t).scn()`), whatever `scn` -/
def Item.gaussianConverterWith {β : Type} (draw : List ℚ → List ℚ → Except PyErr β) (a : Analyzer) (x : Item)
    (t scn : Option ℤ) : Except PyErr β := do
  notBoth t scn
  let pt ← x.ask a [(.time, indexArg t), (.scn, .none)]
  let qt ← column pt.lines x.col
  let rac ← a.getRac x.network
  match t, scn with
  | none, none => .error .typeError
  | none, some k => do
    let rac ← rowAt rac k
    draw rac qt
  | some t, _ => do
    let rac ← columnAt rac t
    draw rac qt

/-- `gaussian` of converters: abscissas of the points -/
def Item.gaussianConverter (a : Analyzer) (x : Item) (t scn : Option ℤ) : Except PyErr (List ℚ × List ℚ) :=
  x.gaussianConverterWith gaussianChart a t scn

/-- `StorageFluentAPISelector.candles` (abc.py 377-400): opens and closes. `df["init_capacity"][0]` is the line
with label 0. -/
def candles (a : Analyzer) (network node name : String) (scn : ℤ) : Except PyErr (List ℚ × List ℚ) := do
  let pt ← query a network [(.node, .one (.str node)), (.stor, .one (.str name)), (.scn, .one (.num scn)),
    (.time, .none)]
  let lines := sortIndex pt.lines
  let init ← match lines.find? fun l => decide (l.1 = [Cell.num 0]) with
    | some l => Line.value l "init_capacity"
    | none => .error .keyError
  let flowIn ← column lines "flow_in"
  let eff ← column lines "eff"
  let flowOut ← column lines "flow_out"
  let opens := cumsum 0 (init :: List.zipWith (· - ·) (List.zipWith (· * ·) flowIn eff) flowOut)
  pure (opens.dropLast, opens.tail)

/-- `data.sort_values(col, ascending=False)`: quicksort is not stable, so the order of lines with the same value
is a parameter of the model -/
abbrev SortValues : Type := (Line → ℚ) → List Line → List Line

/-- `extract` (abc.py 817-827), on the answer to `query.time()` -/
def extract (srt : SortValues) (pt : Pivot) (valueCol : String) (sortCol : Option String) :
    Except PyErr (List (Cell × List ℚ)) := do
  let lines ← match sortCol with
    | none => pure pt.lines
    | some c => do
      let _ ← column pt.lines c
      pure (srt (fun l => (Line.value l c).toOption.getD 0) pt.lines)
  let ids ← levelValues { pt with lines := lines } "name"
  (unique ids).mapM fun i => do
    let y ← column (sortIndex (loc lines i)) valueCol
    pure (i, y)

/-- `extract(query=self.agg.network(self.network).scn(scn).node(self.node).production(), ...) if p > 0 else []`
and alike (abc.py 833-864, 872-898) -/
def part (a : Analyzer) (srt : SortValues) (network node : String) (scn : ℤ) (n : ℕ) (kind : IndexKind)
    (valueCol : String) (sortCol : Option String) : Except PyErr (List (Cell × List ℚ)) :=
  if 0 < n then do
    let pt ← query a network [(.scn, .one (.num scn)), (.node, .one (.str node)), (kind, .none), (.time, .none)]
    extract srt pt valueCol sortCol
  else pure []

/-- `if not (im == 0).all(): areas.append(("import", im))` (abc.py 869-870, 902-903) -/
def exchanged (name : String) (v : List ℚ) : List (Cell × List ℚ) :=
  if v.all fun q => decide (q = 0) then [] else [(.str name, v)]

/-- `NodeFluentAPISelector.stack` (abc.py 806-907) -/
def stack (a : Analyzer) (srt : SortValues) (network node : String) (scn : ℤ) (prodKind consKind : String) :
    Except PyErr StackChart := do
  let n ← a.elementsInside (some node) (some network)
  let prods ← part a srt network node scn (n.getD 1 0) .prod prodKind (some "cost")
  let outs ← part a srt network node scn (n.getD 2 0) .stor "flow_out" (some "cost")
  let arrivals ← part a srt network node scn (n.getD 5 0) .destConv "flow" none
  let balance ← a.getBalance node network
  let balance ← rowAt balance scn
  let areas := prods ++ outs ++ arrivals ++ exchanged "import" (balance.map fun b => -(min b 0))
  let cons ← part a srt network node scn (n.getD 0 0) .cons consKind (some "cost")
  let ins ← part a srt network node scn (n.getD 2 0) .stor "flow_in" (some "cost")
  let departures ← part a srt network node scn (n.getD 4 0) .srcConv "flow" none
  let lines := cons ++ ins ++ departures ++ exchanged "export" (balance.map fun b => max b 0)
  stackChart a.study.horizon areas lines

/-- `NetworkFluentAPISelector.rac_matrix` (abc.py 1017-1027): percentage of the title and chart. On an empty
matrix the percentage is NaN, which `%0d` refuses. -/
def racMatrix (a : Analyzer) (network : String) : Except PyErr (ℚ × MatrixChart) := do
  let rac ← a.getRac network
  if rac.data.length = 0 then .error .valueError
  else do
    let pct := ((rac.data.filter fun q => decide (0 ≤ q)).length : ℚ) / rac.data.length * 100
    let chart ← matrixChart rac
    pure (pct, chart)

/-- `links.loc[src, dest]["used"]` -/
def flowOf (lines : List Line) (src dest : Cell) : Except PyErr ℚ :=
  match lines.find? fun l => decide (l.1 = [src, dest]) with
  | some l => Line.value l "used"
  | none => .error .keyError

/-- body of the inner loop (abc.py 1051-1060) -/
def drawExchange (lines : List Line) (arrows : Dict (Cell × Cell) ℚ) (src dest : Cell) :
    Except PyErr (Dict (Cell × Cell) ℚ) := do
  let forward ← flowOf lines src dest
  let backward ← if lines.any fun l => decide (l.1 = [dest, src]) then flowOf lines dest src else pure 0
  let exchange := forward - backward
  pure (if 0 ≤ exchange then arrows.set (src, dest) exchange else arrows.set (dest, src) (-exchange))

/-- `NetworkFluentAPISelector.map` (abc.py 1029-1063), given the method `plotting.map_exchange` (`draw`) -/
def mapWith {β : Type} (draw : Dict String ℚ → Dict (Cell × Cell) ℚ → ℚ → Except PyErr β) (a : Analyzer)
    (network : String) (t scn : ℤ) (limit : Option ℚ) : Except PyErr β := do
  let names ← a.nodes network
  let nodes ← names.mapM fun d => do
    let b ← a.getBalance d network
    let q ← b.get2 scn t
    pure (d, q)
  let limit ← match limit with
    | some l => pure l
    | none => do
      let hi ← pyMax (nodes.map Prod.snd)
      let lo ← pyMin (nodes.map Prod.snd)
      pure (max hi (-lo))
  let pt ← query a network [(.scn, .one (.num scn)), (.time, .one (.num t)), (.node, .none), (.link, .none)]
  let srcs ← levelValues pt "node"
  let arrows ← (unique srcs).foldlM (fun arrows src => do
    let dests ← levelValues ⟨pt.levels.tail, loc pt.lines src⟩ "dest"
    (unique dests).foldlM (fun arrows dest => drawExchange pt.lines arrows src dest) arrows) []
  draw nodes arrows limit

/-- `NetworkFluentAPISelector.map`: the data of the map -/
def map (a : Analyzer) (coord : Option (Dict String (ℚ × ℚ))) (network : String) (t scn : ℤ)
    (limit : Option ℚ) : Except PyErr MapChart :=
  mapWith (mapChart coord) a network t scn limit

end Viewer

end Hadar
