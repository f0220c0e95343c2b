import Verif.Model.Analyzer
import Verif.Model.Selectors
import Verif.Spec.LP

/-!
# What the analyzer should answer (independent of its code)
-/

namespace Hadar.Spec

open Hadar

/-! ### Tables -/

/-- one entry per scenario and time step, in this order -/
def grid {α : Type} (s : Study) (f : ℕ → ℕ → α) : List α :=
  (List.range s.nbScn).flatMap fun k => (List.range s.horizon).map fun t => f k t

/-- elements of all nodes of a study: network, node, position in the node, element -/
def elements {α : Type} (s : Study) (sel : InputNode → List α) : List (String × String × ℕ × α) :=
  s.networks.flatMap fun p => p.2.nodes.flatMap fun q =>
    (sel q.2).zipIdx.map fun e => (p.1, q.1, e.2, e.1)

/-- a row is what it holds in each column -/
abbrev Row : Type := Dict String Cell

/-- C31: row of the `i`-th consumption of a node, for scenario `k` at time `t` -/
def consumptionRow (r : Result) (e : String × String × ℕ × Consumption) (k t : ℕ) : Row :=
  [("cost", .num (val e.2.2.2.cost k t)), ("asked", .num (val e.2.2.2.quantity k t)),
   ("given", .num (cellAt (outNode r e.1 e.2.1).consumptions e.2.2.1 (·.quantity) k t)),
   ("name", .str e.2.2.2.name), ("node", .str e.2.1), ("network", .str e.1),
   ("t", .num t), ("scn", .num k)]

/-- C32 -/
def productionRow (r : Result) (e : String × String × ℕ × Production) (k t : ℕ) : Row :=
  [("cost", .num (val e.2.2.2.cost k t)), ("avail", .num (val e.2.2.2.quantity k t)),
   ("used", .num (cellAt (outNode r e.1 e.2.1).productions e.2.2.1 (·.quantity) k t)),
   ("name", .str e.2.2.2.name), ("node", .str e.2.1), ("network", .str e.1),
   ("t", .num t), ("scn", .num k)]

/-- C33 -/
def linkRow (r : Result) (e : String × String × ℕ × Link) (k t : ℕ) : Row :=
  [("cost", .num (val e.2.2.2.cost k t)), ("avail", .num (val e.2.2.2.quantity k t)),
   ("used", .num (cellAt (outNode r e.1 e.2.1).links e.2.2.1 (·.quantity) k t)),
   ("node", .str e.2.1), ("dest", .str e.2.2.2.dest), ("network", .str e.1),
   ("t", .num t), ("scn", .num k)]

/-- C34 -/
def storageRow (r : Result) (e : String × String × ℕ × Storage) (k t : ℕ) : Row :=
  [("max_capacity", .num (val e.2.2.2.capacity k t)),
   ("capacity", .num (cellAt (outNode r e.1 e.2.1).storages e.2.2.1 (·.capacity) k t)),
   ("max_flow_in", .num (val e.2.2.2.flowIn k t)),
   ("flow_in", .num (cellAt (outNode r e.1 e.2.1).storages e.2.2.1 (·.flowIn) k t)),
   ("max_flow_out", .num (val e.2.2.2.flowOut k t)),
   ("flow_out", .num (cellAt (outNode r e.1 e.2.1).storages e.2.2.1 (·.flowOut) k t)),
   ("cost", .num (val e.2.2.2.cost k t)), ("init_capacity", .num e.2.2.2.initCapacity),
   ("eff", .num (val e.2.2.2.eff k t)),
   ("name", .str e.2.2.2.name), ("node", .str e.2.1), ("network", .str e.1),
   ("t", .num t), ("scn", .num k)]

/-- C35 -/
def destRow (r : Result) (p : String × Converter) (k t : ℕ) : Row :=
  [("name", .str p.1), ("network", .str p.2.destNetwork), ("node", .str p.2.destNode),
   ("flow", .num (match r.converters.get? p.1 with
     | some o => cell o.flowDest k t
     | none => 0)),
   ("cost", .num (fval p.2.cost k t)), ("max", .num (fval p.2.max k t)),
   ("t", .num t), ("scn", .num k)]

/-- quotient of two floats: an infinity when dividing by zero, NaN for zero by zero -/
def quotient (m q : ℚ) : Cell := if q ≠ 0 then .num (m / q) else if 0 < m then .inf false else if m < 0 then .inf true else .nan

/-- the sources of all converters: converter, its name, network and node of the source, ratio -/
def sources (s : Study) : List (Converter × String × String × String × NumVal) :=
  s.converters.flatMap fun p => p.2.srcRatios.map fun q =>
    (p.2, p.1, q.1.getD 0 "", q.1.getD 1 "", q.2)

/-- C36: the intake is limited by the limit on the output divided by the ratio -/
def sourceRow (r : Result) (e : Converter × String × String × String × NumVal) (k t : ℕ) : Row :=
  [("name", .str e.2.1), ("network", .str e.2.2.1), ("node", .str e.2.2.2.1),
   ("ratio", .num (val e.2.2.2.2 k t)),
   ("flow", .num (match (r.converters.get? e.2.1).bind fun o => o.flowSrc.get? [e.2.2.1, e.2.2.2.1] with
     | some a => cell a k t
     | none => 0)),
   ("max", quotient (fval e.1.max k t) (val e.2.2.2.2 k t)),
   ("t", .num t), ("scn", .num k)]

/-- the rows of the table of each kind of element -/
def tableRows (s : Study) (r : Result) : IndexKind → List Row
  | .cons => (elements s (·.consumptions)).flatMap fun e => grid s (consumptionRow r e)
  | .prod => (elements s (·.productions)).flatMap fun e => grid s (productionRow r e)
  | .link => (elements s (·.links)).flatMap fun e => grid s (linkRow r e)
  | .stor => (elements s (·.storages)).flatMap fun e => grid s (storageRow r e)
  | .destConv => s.converters.flatMap fun p => grid s (destRow r p)
  | .srcConv => (sources s).flatMap fun e => grid s (sourceRow r e)
  | _ => []

/-- what a row holds in a column -/
def Row.at (row : Row) (c : String) : Cell := (Dict.get? row c).getD .nan

/-- the columns that identify a row -/
def identity (kind : IndexKind) (row : Row) : List Cell :=
  ["network", "node", kind.column, "scn", "t"].map (Row.at row)

/-! ### Queries -/

/-- `i` is in Python's `range(a, b, step)` -/
def InRange (a b step i : ℤ) : Prop :=
  (0 < step ∧ a ≤ i ∧ i < b ∨ step < 0 ∧ b < i ∧ i ≤ a) ∧ step ∣ i - a

/-- C39: `i` is selected by the slice, out of `size` positions; omitted bounds are the beginning and the
end (in reverse order with a negative step) -/
def InSlice (size : ℕ) (start stop step : Option ℤ) (i : ℤ) : Prop :=
  0 ≤ i ∧ i < size ∧
    let c := step.getD 1
    InRange (start.getD (if 0 < c then 0 else size - 1)) (stop.getD (if 0 < c then size else -1)) c i

/-- number of positions along a dimension (only time and scenario have positions) -/
def extent (s : Study) : IndexKind → ℕ
  | .time => s.horizon
  | .scn => s.nbScn
  | _ => 0

/-- a filter selects a value: nothing and the empty list select everything -/
def Selects (size : ℕ) : IndexArg → Cell → Prop
  | .none, _ => True
  | .list l, c => l = [] ∨ c ∈ l
  | .tuple l, c => c ∈ l
  | .one x, c => c = x
  | .slice a b st, c => ∃ i : ℤ, c = .num i ∧ InSlice size a b st i

/-- a row matches all filters -/
def Matches (s : Study) (filters : List (IndexKind × IndexArg)) (row : Row) : Prop :=
  ∀ p ∈ filters, Selects (extent s p.1) p.2 (Row.at row p.1.column)

/-- a filter gives exactly one value -/
inductive Single : IndexArg → Prop
  | one (c : Cell) : Single (.one c)
  | list (c : Cell) : Single (.list [c])
  | tuple (c : Cell) : Single (.tuple [c])
  | slice (a b : ℤ) (st : Option ℤ) (i : ℤ) (h : ∀ j, InRange a b (st.getD 1) j ↔ j = i) :
      Single (.slice (some a) (some b) st)

/-- the values of a row by order of the names of their columns -/
def alphabetical (row : Row) : Row := row.insertionSort fun a b => a.1 ≤ b.1

open Classical in
/-- C37: the answer has one line per row that matches all filters, with the values of the row: `levels`
are the columns of the filters, in order, less the first ones when they give one value (an empty answer may
keep them). Columns without any value in these rows are left out, the others are in alphabetical order. -/
structure Answer (s : Study) (rows : List Row) (filters : List (IndexKind × IndexArg)) (pt : Pivot) :
    Prop where
  lines : pt.lines.Perm ((rows.filter fun row => decide (Matches s filters row)).map fun row =>
    (pt.levels.map (Row.at row), alphabetical (row.filter fun p => decide (p.1 ∉ (filters.map fun f => f.1.column) ∧
      ∃ row' ∈ rows, Matches s filters row' ∧ Row.at row' p.1 ≠ .nan))))
  levels : ∃ dropped kept, filters = dropped ++ kept ∧ (∀ p ∈ dropped, Single p.2) ∧
    (pt.lines ≠ [] → ∀ p, kept.head? = some p → ¬ Single p.2) ∧
    pt.levels = kept.map fun p => p.1.column
  sorted : pt.lines.Pairwise fun a b => Cell.keyLe a.1 b.1 = true

/-- both bounds of the slices are given -/
def BoundsGiven (filters : List (IndexKind × IndexArg)) : Prop :=
  ∀ k a b c, (k, IndexArg.slice a b c) ∈ filters → a.isSome ∧ b.isSome

/-- a filter gives something: not an empty tuple or range; slices are for time and scenario only, with
both bounds -/
inductive Gives (k : IndexKind) : IndexArg → Prop
  | none : Gives k .none
  | list (l : List Cell) : Gives k (.list l)
  | tuple (l : List Cell) (h : l ≠ []) : Gives k (.tuple l)
  | one (c : Cell) : Gives k (.one c)
  | slice (a b : ℤ) (st : Option ℤ) (h : ∃ i, InRange a b (st.getD 1) i) (hk : k = .time ∨ k = .scn) :
      Gives k (.slice (some a) (some b) st)

/-- a filter does not give one value only -/
inductive Several : IndexArg → Prop
  | none : Several .none
  | nil : Several (.list [])
  | list (a b : Cell) (l : List Cell) : Several (.list (a :: b :: l))
  | tuple (a b : Cell) (l : List Cell) : Several (.tuple (a :: b :: l))
  | slice (a b : ℤ) (st : Option ℤ) (i j : ℤ) (h : i ≠ j) (hi : InRange a b (st.getD 1) i)
      (hj : InRange a b (st.getD 1) j) : Several (.slice (some a) (some b) st)

/-- C41: the queries followed by a user who keeps selectors: for each selector, the network and the calls
that led to it; `replies` are what the user got -/
def paths (a : Analyzer) : List SelOp → List (IndexArg × List (IndexKind × IndexArg)) × Selectors
  | [] => ([], Selectors.start)
  | op :: before =>
    let (ps, st) := paths a before
    let (reply, st') := st.step a op
    match reply, op with
    | .ok (.ref _), .network arg => (ps ++ [(arg, [])], st')
    | .ok (.ref _), .call i k arg =>
      (ps ++ [((ps.getD i (.none, [])).1, (ps.getD i (.none, [])).2 ++ [(k, arg)])], st')
    | _, _ => (ps, st')

/-- the user got what the chain of calls gives from scratch -/
inductive SameReply : Except PyErr SelReply → Except PyErr Reply → Prop
  | error (e : PyErr) : SameReply (.error e) (.error e)
  | table (t : Option Pivot) : SameReply (.ok (.table t)) (.ok (.table t))
  | selector (i : ℕ) (q : Selector) : SameReply (.ok (.ref i)) (.ok (.selector q))

/-- the selector is not called -/
def Untouched (i : ℕ) (ops : List SelOp) : Prop := ∀ k arg, SelOp.call i k arg ∉ ops

/-- no selector is called twice (last operation first) -/
def Linear : List SelOp → Prop
  | [] => True
  | .network _ :: ops => Linear ops
  | .call i _ _ :: ops => Untouched i ops ∧ Linear ops

/-- what the selectors are after some operations of the user (first operation first) -/
def afterOps (a : Analyzer) (st : Selectors) (ops : List SelOp) : Selectors := ops.foldl (fun st op => (st.step a op).2) st

/-! ### Aggregations -/

/-- C42: cost of what converters give to a node -/
def arrivalCost (s : Study) (k : ℕ) (D : Dispatch) (g d : String) (t : ℕ) : ℚ :=
  sumL s.converters fun p =>
    if p.2.destNetwork = g ∧ p.2.destNode = d then fval p.2.cost k t * D.convDest p.1 t else 0

/-- C46: consumptions, productions, storages, links of a node, converters that take from it, converters
that give to it -/
def counts (s : Study) (g d : String) (n : InputNode) : List ℕ :=
  [n.consumptions.length, n.productions.length, n.storages.length, n.links.length,
   s.converters.countP fun p => decide ([g, d] ∈ p.2.srcRatios.map Prod.fst),
   s.converters.countP fun p => decide ((p.2.destNetwork, p.2.destNode) = (g, d))]

/-- C46: sums, kind by kind -/
def totals (l : List (List ℕ)) : List ℕ := (List.range 6).map fun i => (l.map fun c => c.getD i 0).sum

/-- C43: the nodes of a study -/
def places (s : Study) : List (String × String × InputNode) :=
  s.networks.flatMap fun p => p.2.nodes.map fun q => (p.1, q.1, q.2)

/-- number of storages of the study -/
def storageCount (s : Study) : ℕ := (elements s (·.storages)).length

/-- the tables that can be relied on: all, but for storages when there are several and for intakes when a
converter has several sources (see C34, C36) -/
structure Reliable (s : Study) (kind : IndexKind) : Prop where
  storages : kind = .stor → storageCount s ≤ 1
  sources : kind = .srcConv → ∀ p ∈ s.converters, p.2.srcRatios.length = 1

/-- the tables that charts can rely on: no bound of an intake is zero divided by zero either -/
structure Drawable (s : Study) (kind : IndexKind) : Prop extends Reliable s kind where
  bounds : kind = .srcConv → ∀ p ∈ s.converters, ∀ q ∈ p.2.srcRatios, ∀ k < s.nbScn, ∀ t < s.horizon,
    ¬ (fval p.2.max k t = 0 ∧ val q.2 k t = 0)

/-- an array with the dimensions of the study and these cells -/
def Holds (s : Study) (a : NdArray) (f : ℕ → ℕ → ℚ) : Prop :=
  Full s a ∧ ∀ k < s.nbScn, ∀ t < s.horizon, cell a k t = f k t

/-- C79: the number of sources of each converter, so that the table of intakes can be built -/
def FewSources (s : Study) : Prop :=
  (∀ p ∈ s.converters.dropLast, p.2.srcRatios.length = 1) ∧ ∀ p ∈ s.converters, p.2.srcRatios.length ≤ 2

end Hadar.Spec
