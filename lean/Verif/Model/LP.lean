import Verif.Model.Output

/-!
# `hadar/optimizer/lp`: mapper, builders and solve loop

The linear solver (ortools) is not modelled. Its API is: the calls made on a solver form a log
(`Cmd`), and what a log means is defined in the last section (`Cmd.rowValue`, `Feasible`, ...).

An exception anywhere while a scenario is being built loses the solver and everything in it (it is
local to `_solve_batch`), so that building is modelled by functions in `Except`, without the state
left behind by an exception.
-/

namespace Hadar

/-! ### Solver API -/

/-- A solver variable. Each `NumVar` call returns a fresh object; it is named here by the place of
the study it is created for (`mapper.py` creates exactly one per place and per time step). -/
inductive Var where
  | lol (t : ℕ) (net node : String) (i : ℕ)
  | prod (t : ℕ) (net node : String) (i : ℕ)
  | cap (t : ℕ) (net node : String) (i : ℕ)
  | fin (t : ℕ) (net node : String) (i : ℕ)
  | fout (t : ℕ) (net node : String) (i : ℕ)
  | link (t : ℕ) (net node : String) (i : ℕ)
  | convSrc (t : ℕ) (conv : String) (src : List String)
  | convDest (t : ℕ) (conv : String)
  deriving DecidableEq, Repr

/-- A solver constraint, named in the same way by the place it is created for. -/
inductive RowId where
  | adeq (t : ℕ) (net node : String)
  | stor (t : ℕ) (net node : String) (name : String)
  | mix (t : ℕ) (conv : String) (src : List String)
  deriving DecidableEq, Repr

/-- Calls to the solver: `NumVar(lb, ub)`, `Constraint(lo, hi)`, `constraint.SetCoefficient`,
`objective.SetCoefficient` -/
inductive Cmd where
  | numVar (v : Var) (lb ub : ℚ)
  /-- `NumVar(lb, inf)` if `pos`, else `NumVar(lb, -inf)` -/
  | numVarInf (v : Var) (lb : ℚ) (pos : Bool)
  | constraint (r : RowId) (lo hi : ℚ)
  | setCoef (r : RowId) (v : Var) (c : ℚ)
  | setObj (v : Var) (c : ℚ)
  deriving DecidableEq, Repr

/-! ### Linear programming domain (`lp/domain.py`). `V` is the type of the `variable` attributes:
`Var` before solving, `ℚ` (solution value) after. -/

/-- lp/domain.py 44-71 -/
structure LPConsumption (V : Type) where
  cost : ℚ
  quantity : ℚ
  name : String
  var : V
  deriving DecidableEq, Repr

/-- lp/domain.py 74-101 -/
structure LPProduction (V : Type) where
  name : String
  cost : ℚ
  var : V
  quantity : ℚ
  deriving DecidableEq, Repr

/-- lp/domain.py 104-148 -/
structure LPStorage (V : Type) where
  name : String
  capacity : ℚ
  varCapacity : V
  flowIn : ℚ
  varFlowIn : V
  flowOut : ℚ
  varFlowOut : V
  cost : ℚ
  initCapacity : ℚ
  eff : ℚ
  deriving DecidableEq, Repr

/-- lp/domain.py 151-181 -/
structure LPLink (V : Type) where
  src : String
  dest : String
  quantity : ℚ
  var : V
  cost : ℚ
  deriving DecidableEq, Repr

/-- lp/domain.py 184-231 -/
structure LPConverter (V : Type) where
  name : String
  srcRatios : Dict (List String) ℚ
  varFlowSrc : Dict (List String) V
  destNetwork : String
  destNode : String
  varFlowDest : V
  cost : ℚ
  max : ℚ
  deriving DecidableEq, Repr

/-- lp/domain.py 234-266 -/
structure LPNode (V : Type) where
  consumptions : List (LPConsumption V)
  productions : List (LPProduction V)
  storages : List (LPStorage V)
  links : List (LPLink V)
  deriving DecidableEq, Repr

/-- lp/domain.py 269-308 (`LPNetwork` is only its dict of nodes) -/
structure LPTimeStep (V : Type) where
  networks : Dict String (Dict String (LPNode V))
  converters : Dict String (LPConverter V)
  deriving DecidableEq, Repr

/-! ### `InputMapper` (`lp/mapper.py` 27-163) -/

/-- `c[scn, t]` on the `cost` or `max` of a converter; the integer `0` is not subscriptable -/
def ConvField.getitem (c : ConvField) (scn t : ℤ) : Except PyErr ℚ :=
  match c with
  | .int0 => .error .typeError
  | .val v => v.getitem scn t

/-- mapper.py 60-70 -/
def LPConsumption.ofInput (net node : String) (scn t : ℕ) (c : Consumption) (i : ℕ) :
    Except PyErr (LPConsumption Var) := do
  let cost ← c.cost.getitem scn t
  let quantity ← c.quantity.getitem scn t
  pure ⟨cost, quantity, c.name, .lol t net node i⟩

/-- mapper.py 72-82 -/
def LPProduction.ofInput (net node : String) (scn t : ℕ) (c : Production) (i : ℕ) :
    Except PyErr (LPProduction Var) := do
  let cost ← c.cost.getitem scn t
  let quantity ← c.quantity.getitem scn t
  pure ⟨c.name, cost, .prod t net node i, quantity⟩

/-- mapper.py 84-110 -/
def LPStorage.ofInput (net node : String) (scn t : ℕ) (c : Storage) (i : ℕ) :
    Except PyErr (LPStorage Var) := do
  let flowIn ← c.flowIn.getitem scn t
  let flowOut ← c.flowOut.getitem scn t
  let eff ← c.eff.getitem scn t
  let capacity ← c.capacity.getitem scn t
  let cost ← c.cost.getitem scn t
  pure ⟨c.name, capacity, .cap t net node i, flowIn, .fin t net node i, flowOut, .fout t net node i,
    cost, c.initCapacity, eff⟩

/-- mapper.py 112-123 -/
def LPLink.ofInput (net node : String) (scn t : ℕ) (c : Link) (i : ℕ) :
    Except PyErr (LPLink Var) := do
  let cost ← c.cost.getitem scn t
  let quantity ← c.quantity.getitem scn t
  pure ⟨node, c.dest, quantity, .link t net node i, cost⟩

/-- the values of `get_node_var` (mapper.py 42-130) for a node found in the study -/
def LPNode.ofInput (net node : String) (scn t : ℕ) (n : InputNode) : Except PyErr (LPNode Var) := do
  let consumptions ← n.consumptions.zipIdx.mapM
    (fun p => LPConsumption.ofInput net node scn t p.1 p.2)
  let productions ← n.productions.zipIdx.mapM
    (fun p => LPProduction.ofInput net node scn t p.1 p.2)
  let storages ← n.storages.zipIdx.mapM (fun p => LPStorage.ofInput net node scn t p.1 p.2)
  let links ← n.links.zipIdx.mapM (fun p => LPLink.ofInput net node scn t p.1 p.2)
  pure ⟨consumptions, productions, storages, links⟩

/-- `get_node_var` (mapper.py 42-130) -/
def getNodeVar (s : Study) (net node : String) (t scn : ℕ) : Except PyErr (LPNode Var) := do
  let network ← Dict.getE s.networks net
  let n ← Dict.getE network.nodes node
  LPNode.ofInput net node scn t n

/-- the `NumVar` calls of `get_node_var` (mapper.py 65, 77, 93, 98, 103, 118) -/
def LPNode.numVars (n : LPNode Var) : List Cmd :=
  n.consumptions.map (fun c => .numVar c.var 0 c.quantity) ++
  n.productions.map (fun c => .numVar c.var 0 c.quantity) ++
  n.storages.flatMap (fun c => [.numVar c.varCapacity 0 c.capacity, .numVar c.varFlowIn 0 c.flowIn,
    .numVar c.varFlowOut 0 c.flowOut]) ++
  n.links.map (fun c => .numVar c.var 0 c.quantity)

/-- is the value a Python number (`ScalarNumericalValue`, numeric.py 55-78), so that `__getitem__`
gives a Python number, and not an array, for which it gives a numpy number (numeric.py 95-160)? -/
def NumVal.isNumber (v : NumVal) : Bool :=
  match v.kind with
  | .scalar _ => true
  | _ => false

/-- `NumVal.isNumber` for a field of a converter -/
def ConvField.isNumber : ConvField → Bool
  | .int0 => true
  | .val v => v.isNumber

/-- `NumVar(0, float(max / r), ...)` (mapper.py 154-158). When `r` is zero the division raises if
both operands are Python numbers; if one of them is a numpy number it gives `inf` or `-inf`, with a
warning. Simplifications: `0 / 0` is then `nan`, and what the solver makes of this bound is not
known, here this raises; an array of Python objects counts as an array of numpy numbers. -/
def srcBound (numbers : Bool) (v : Var) (max r : ℚ) : Except PyErr Cmd :=
  if r ≠ 0 then .ok (.numVar v 0 (max / r))
  else if numbers then .error .zeroDivisionError
  else if max = 0 then .error .valueError
  else .ok (.numVarInf v 0 (0 < max))

/-- the values of `get_conv_var` (mapper.py 132-163): the converter and the upper bound of each
source flow -/
def getConvVar (s : Study) (name : String) (t scn : ℕ) :
    Except PyErr (LPConverter Var × List Cmd) := do
  let v ← Dict.getE s.converters name
  let srcRatios ← v.srcRatios.mapM (fun p => do
    let r ← p.2.getitem scn t
    pure (p.1, r))
  let cost ← v.cost.getitem scn t
  let max ← v.max.getitem scn t
  let bounds ← v.srcRatios.mapM (fun p => do
    let r ← p.2.getitem scn t
    srcBound (v.max.isNumber && p.2.isNumber) (.convSrc t v.name p.1) max r)
  pure (⟨v.name, srcRatios, srcRatios.map (fun p => (p.1, .convSrc t v.name p.1)), v.destNetwork,
    v.destNode, .convDest t v.name, cost, max⟩, bounds ++ [.numVar (.convDest t v.name) 0 max])

/-! ### Builders (`lp/optimizer.py`) -/

namespace ObjectiveBuilder

/-- `add_node` (lp/optimizer.py 48-101) -/
def addNode (n : LPNode Var) : List Cmd :=
  n.consumptions.map (fun c => .setObj c.var c.cost) ++
  n.productions.map (fun c => .setObj c.var c.cost) ++
  n.storages.map (fun c => .setObj c.varCapacity c.cost) ++
  n.links.map (fun c => .setObj c.var c.cost)

/-- `add_converter` (lp/optimizer.py 103-111) -/
def addConverter (c : LPConverter Var) : List Cmd := [.setObj c.varFlowDest c.cost]

end ObjectiveBuilder

/-- the keys of `AdequacyBuilder.constraints` (lp/optimizer.py 129): time, network, node -/
abbrev AdeqKey : Type := ℕ × String × String

/-- the keys of `importations` and `capacities` (lp/optimizer.py 130, 291): time, network, node and
destination or storage name -/
abbrev SubKey : Type := ℕ × String × String × String

namespace AdequacyBuilder

/-- `add_node` (lp/optimizer.py 134-152) with `_add_consumptions` (154-180), `_add_productions`
(182-203), `_add_storages` (205-229), `_add_links` (231-257): solver calls. `load * 1.0` is `load`. -/
def addNode (net node : String) (n : LPNode Var) (t : ℕ) : List Cmd :=
  let load := (n.consumptions.map (·.quantity)).sum
  [.constraint (.adeq t net node) load load] ++
  n.consumptions.map (fun c => .setCoef (.adeq t net node) c.var 1) ++
  n.productions.map (fun c => .setCoef (.adeq t net node) c.var 1) ++
  n.storages.flatMap (fun c => [.setCoef (.adeq t net node) c.varFlowIn (-1),
    .setCoef (.adeq t net node) c.varFlowOut 1]) ++
  n.links.map (fun c => .setCoef (.adeq t net c.src) c.var (-1))

/-- `add_node`, the entries put in `self.importations` (lp/optimizer.py 249-251) -/
def importsOf (net : String) (n : LPNode Var) (t : ℕ) : List (SubKey × Var) :=
  n.links.map (fun c => ((t, net, c.src, c.dest), c.var))

/-- `self.constraints[key].SetCoefficient(v, c)`: the constraint must exist -/
def setCoef (keys : List AdeqKey) (key : AdeqKey) (v : Var) (c : ℚ) : Except PyErr Cmd :=
  if key ∈ keys then .ok (.setCoef (.adeq key.1 key.2.1 key.2.2) v c) else .error .keyError

/-- `for (network, node), var in conv.var_flow_src.items()` (lp/optimizer.py 270-271): unpacking
raises when the key has not two parts -/
def srcCoef (keys : List AdeqKey) (t : ℕ) (p : List String × Var) : Except PyErr Cmd :=
  match p.1 with
  | [network, node] => setCoef keys (t, network, node) p.2 (-1)
  | _ => .error .valueError

/-- `add_converter` (lp/optimizer.py 259-272) -/
def addConverter (keys : List AdeqKey) (c : LPConverter Var) (t : ℕ) : Except PyErr (List Cmd) := do
  let dest ← setCoef keys (t, c.destNetwork, c.destNode) c.varFlowDest 1
  let srcs ← c.varFlowSrc.mapM (srcCoef keys t)
  pure (dest :: srcs)

/-- `build` (lp/optimizer.py 274-282) -/
def build (keys : List AdeqKey) (imports : Dict SubKey Var) : Except PyErr (List Cmd) :=
  imports.mapM (fun p => setCoef keys (p.1.1, p.1.2.1, p.1.2.2.2) p.2 1)

end AdequacyBuilder

namespace StorageBuilder

/-- `add_node` (lp/optimizer.py 295-314). The `return const` at the end of both branches is inside
the `for` loop: only the first storage of the node is treated. -/
def addNode (caps : Dict SubKey Var) (net node : String) (n : LPNode Var) (t : ℕ) :
    Except PyErr (List Cmd × Dict SubKey Var) :=
  match n.storages with
  | [] => .ok ([], caps)
  | st :: _ =>
    let caps := caps.set (t, net, node, st.name) st.varCapacity
    let row := RowId.stor t net node st.name
    if t = 0 then
      .ok ([.constraint row st.initCapacity st.initCapacity, .setCoef row st.varFlowIn (-st.eff),
        .setCoef row st.varFlowOut 1, .setCoef row st.varCapacity 1], caps)
    else do
      let prev ← Dict.getE caps (t - 1, net, node, st.name)
      pure ([.constraint row 0 0, .setCoef row st.varFlowIn (-st.eff),
        .setCoef row st.varFlowOut 1, .setCoef row prev (-1), .setCoef row st.varCapacity 1], caps)

end StorageBuilder

namespace ConverterMixBuilder

/-- `_build_constraint` (lp/optimizer.py 337-342) -/
def buildConstraint (row : RowId) (r : ℚ) (varDest varSrc : Var) : List Cmd :=
  [.constraint row 0 0, .setCoef row varSrc r, .setCoef row varDest (-1)]

/-- `add_converter` (lp/optimizer.py 329-335) -/
def addConverter (c : LPConverter Var) (t : ℕ) : Except PyErr (List Cmd) := do
  let rows ← c.srcRatios.mapM (fun p => do
    let src ← Dict.getE c.varFlowSrc p.1
    pure (buildConstraint (.mix t c.name p.1) p.2 c.varFlowDest src))
  pure rows.flatten

end ConverterMixBuilder

/-! ### `_solve_batch` (lp/optimizer.py 348-421) -/

/-- state of the builders: the solver log, `AdequacyBuilder.constraints` (its keys),
`AdequacyBuilder.importations`, `StorageBuilder.capacities` -/
structure Build where
  log : List Cmd
  keys : List AdeqKey
  imports : Dict SubKey Var
  caps : Dict SubKey Var
  deriving DecidableEq, Repr

/-- a Python `for` loop over `l` that updates a state and yields one value per iteration -/
def loopM {α σ β : Type} (f : α → σ → Except PyErr (β × σ)) :
    List α → σ → Except PyErr (List β × σ)
  | [], b => .ok ([], b)
  | x :: xs, b => do
    let r ← f x b
    let rs ← loopM f xs r.2
    pure (r.1 :: rs.1, rs.2)

/-- body of the loop over nodes (lp/optimizer.py 378-388) -/
def buildNode (s : Study) (scn t : ℕ) (net node : String) (b : Build) :
    Except PyErr ((String × LPNode Var) × Build) := do
  let n ← getNodeVar s net node t scn
  let st ← StorageBuilder.addNode b.caps net node n t
  pure ((node, n),
    { log := b.log ++ n.numVars ++ AdequacyBuilder.addNode net node n t ++ st.1 ++
        ObjectiveBuilder.addNode n
      keys := b.keys ++ [(t, net, node)]
      imports := (AdequacyBuilder.importsOf net n t).foldl (fun d p => d.set p.1 p.2) b.imports
      caps := st.2 })

/-- body of the loop over networks (lp/optimizer.py 376-388) -/
def buildNet (s : Study) (scn t : ℕ) (p : String × InputNetwork) (b : Build) :
    Except PyErr ((String × Dict String (LPNode Var)) × Build) := do
  let r ← loopM (fun q b => buildNode s scn t p.1 q.1 b) p.2.nodes b
  pure ((p.1, r.1), r.2)

/-- body of the loop over converters (lp/optimizer.py 391-396) -/
def buildConv (s : Study) (scn t : ℕ) (name : String) (b : Build) :
    Except PyErr ((String × LPConverter Var) × Build) := do
  let c ← getConvVar s name t scn
  let adeq ← AdequacyBuilder.addConverter b.keys c.1 t
  let mix ← ConverterMixBuilder.addConverter c.1 t
  pure ((name, c.1),
    { b with log := b.log ++ c.2 ++ adeq ++ mix ++ ObjectiveBuilder.addConverter c.1 })

/-- body of the loop over time steps (lp/optimizer.py 373-396) -/
def buildTime (s : Study) (scn t : ℕ) (b : Build) : Except PyErr (LPTimeStep Var × Build) := do
  let nets ← loopM (buildNet s scn t) s.networks b
  let convs ← loopM (fun p b => buildConv s scn t p.1 b) s.converters nets.2
  pure (⟨nets.1, convs.1⟩, convs.2)

/-- the construction of the problem (lp/optimizer.py 370-401): the time steps with their variables,
and all the calls made to the solver -/
def buildAll (s : Study) (scn : ℕ) : Except PyErr (List (LPTimeStep Var) × List Cmd) := do
  let r ← loopM (buildTime s scn) (List.range s.horizon) ⟨[], [], [], []⟩
  let imports ← AdequacyBuilder.build r.2.keys r.2.imports
  pure (r.1, r.2.log ++ imports)

/-- The solver: from the calls made to the value of each variable (`Solve` then `solution_value`).
What is assumed of it is stated in each theorem. -/
abbrev Solver : Type := List Cmd → Var → ℚ

/-- `JSONLP.to_json` and `from_json` on the keys of a dict: `"::".join`, then `split("::")`
(lp/domain.py 24-28, 222-231) -/
def wireKeys {α : Type} (d : Dict (List String) α) : Dict (List String) α :=
  Dict.ofList ((Dict.ofList (d.map fun p => (joinKey p.1, p.2))).map fun p => (splitKey p.1, p.2))

/-- a converter after the worker: variables are replaced by their value, keys go through
`msgpack` -/
def LPConverter.received (x : Var → ℚ) (c : LPConverter Var) : LPConverter ℚ :=
  { c with
    srcRatios := wireKeys c.srcRatios
    varFlowSrc := wireKeys (c.varFlowSrc.map fun p => (p.1, x p.2))
    varFlowDest := x c.varFlowDest }

/-- a node after the worker (lp/domain.py 18-41, 234-266) -/
def LPNode.received (x : Var → ℚ) (n : LPNode Var) : LPNode ℚ where
  consumptions := n.consumptions.map fun c => { c with var := x c.var }
  productions := n.productions.map fun c => { c with var := x c.var }
  storages := n.storages.map fun c => { c with
    varCapacity := x c.varCapacity
    varFlowIn := x c.varFlowIn
    varFlowOut := x c.varFlowOut }
  links := n.links.map fun c => { c with var := x c.var }

/-- a time step after the worker (lp/domain.py 288-308) -/
def LPTimeStep.received (x : Var → ℚ) (ts : LPTimeStep Var) : LPTimeStep ℚ where
  networks := ts.networks.map fun p => (p.1, p.2.map fun q => (q.1, q.2.received x))
  converters := ts.converters.map fun p => (p.1, p.2.received x)

/-- `_solve_batch` (lp/optimizer.py 348-421) followed by `msgpack.unpackb` and
`LPTimeStep.from_json` (456-463). The status of `Solve()` is not looked at (407). Timings and
logging are left out; `msgpack` is taken as faithful on numbers, strings, lists and dicts. -/
def solveBatch (solver : Solver) (s : Study) (scn : ℕ) : Except PyErr (List (LPTimeStep ℚ)) := do
  let b ← buildAll s scn
  pure (b.1.map (LPTimeStep.received (solver b.2)))

/-! ### `OutputMapper` (lp/mapper.py 166-240) and `solve_lp` (lp/optimizer.py 437-489) -/

/-- `a[i, j] = v` on a 2-D numpy array -/
def NdArray.set2 (a : NdArray) (i j : ℕ) (v : ℚ) : Except PyErr NdArray :=
  match a.shape with
  | [m, k] =>
    if i < m ∧ j < k then
      .ok ⟨a.shape, a.data.set (i * k + j) v, by rw [List.length_set]; exact a.wf⟩
    else .error .indexError
  | _ => .error .indexError

/-- `np.zeros((n, h))` -/
def NdArray.zeros (n h : ℕ) : NdArray :=
  ⟨[n, h], List.replicate (n * h) 0, by simp⟩

namespace OutputMapper

/-- `__init__` (mapper.py 171-197). Every `Output*` object copies the array (`np.array`,
output.py 38, 59, 87-89, 109, 135-136). -/
def init (s : Study) (bench : Benchmark) : Result where
  networks := s.networks.map fun p => (p.1, ⟨p.2.nodes.map fun q =>
    (q.1, OutputNode.buildLikeInput q.2 (NdArray.zeros s.nbScn s.horizon))⟩)
  converters := s.converters.map fun p => (p.1, ⟨p.1,
    p.2.srcRatios.map (fun q => (q.1, NdArray.zeros s.nbScn s.horizon)),
    NdArray.zeros s.nbScn s.horizon⟩)
  benchmark := bench

/-- `for i in range(len(vars)): out[i].… = vars[i].…`: raises when `out` is shorter -/
def zipSet {α β : Type} (f : α → β → Except PyErr β) : List α → List β → Except PyErr (List β)
  | [], out => .ok out
  | _ :: _, [] => .error .indexError
  | v :: vs, o :: os => do
    let o' ← f v o
    let os' ← zipSet f vs os
    pure (o' :: os')

/-- `set_node_var` (mapper.py 199-227) on the output node -/
def writeNode (t scn : ℕ) (vars : LPNode ℚ) (out : OutputNode) : Except PyErr OutputNode := do
  let cons ← zipSet (fun (v : LPConsumption ℚ) (o : OutputConsumption) => do
    let q ← o.quantity.set2 scn t (v.quantity - v.var)
    pure { o with quantity := q }) vars.consumptions out.consumptions
  let prods ← zipSet (fun (v : LPProduction ℚ) (o : OutputProduction) => do
    let q ← o.quantity.set2 scn t v.var
    pure { o with quantity := q }) vars.productions out.productions
  let stors ← zipSet (fun (v : LPStorage ℚ) (o : OutputStorage) => do
    let c ← o.capacity.set2 scn t v.varCapacity
    let fi ← o.flowIn.set2 scn t v.varFlowIn
    let fo ← o.flowOut.set2 scn t v.varFlowOut
    pure { o with capacity := c, flowIn := fi, flowOut := fo }) vars.storages out.storages
  let links ← zipSet (fun (v : LPLink ℚ) (o : OutputLink) => do
    let q ← o.quantity.set2 scn t v.var
    pure { o with quantity := q }) vars.links out.links
  pure ⟨cons, prods, stors, links⟩

/-- `set_node_var` (mapper.py 199-227) -/
def setNodeVar (net node : String) (t scn : ℕ) (vars : LPNode ℚ) (r : Result) :
    Except PyErr Result := do
  let network ← Dict.getE r.networks net
  let out ← Dict.getE network.nodes node
  let out' ← writeNode t scn vars out
  let set := fun network : OutputNetwork => OutputNetwork.mk (network.nodes.modify node fun _ => out')
  pure { r with networks := r.networks.modify net set }

/-- `set_converter_var` (mapper.py 229-232) on the output converter -/
def writeConv (t scn : ℕ) (vars : LPConverter ℚ) (out : OutputConverter) :
    Except PyErr OutputConverter := do
  let src ← vars.varFlowSrc.foldlM (fun (d : Dict (List String) NdArray) p => do
    let a ← Dict.getE d p.1
    let a' ← a.set2 scn t p.2
    pure (d.set p.1 a')) out.flowSrc
  let dest ← out.flowDest.set2 scn t vars.varFlowDest
  pure { out with flowSrc := src, flowDest := dest }

/-- `set_converter_var` (mapper.py 229-232) -/
def setConverterVar (name : String) (t scn : ℕ) (vars : LPConverter ℚ) (r : Result) :
    Except PyErr Result := do
  let out ← Dict.getE r.converters name
  let out' ← writeConv t scn vars out
  pure { r with converters := r.converters.modify name (fun _ => out') }

end OutputMapper

/-- the loops over nodes and converters for one scenario and one time (lp/optimizer.py 464-482) -/
def mapStep (s : Study) (scn t : ℕ) (ts : LPTimeStep ℚ) (r : Result) : Except PyErr Result := do
  let r ← s.networks.foldlM (fun r p =>
    p.2.nodes.foldlM (fun r q => do
      let net ← Dict.getE ts.networks p.1
      let vars ← Dict.getE net q.1
      OutputMapper.setNodeVar p.1 q.1 t scn vars r) r) r
  s.converters.foldlM (fun r p => do
    let vars ← Dict.getE ts.converters p.1
    OutputMapper.setConverterVar p.1 t scn vars r) r

/-- the loop over time for one scenario (lp/optimizer.py 464-482): `variables[t]` -/
def mapScenario (s : Study) (scn : ℕ) (vars : List (LPTimeStep ℚ)) (r : Result) :
    Except PyErr Result :=
  (List.range s.horizon).foldlM (fun r t =>
    match vars[t]? with
    | some ts => mapStep s scn t ts r
    | none => .error .indexError) r

/-- the loop over scenarios (lp/optimizer.py 456-482): `serialized_out[scn]` -/
def mapResults (s : Study) (outs : List (List (LPTimeStep ℚ))) (r : Result) : Except PyErr Result :=
  (List.range s.nbScn).foldlM (fun r scn =>
    match outs[scn]? with
    | some vars => mapScenario s scn vars r
    | none => .error .indexError) r

/-- `solve_lp` (lp/optimizer.py 437-489). `pool.map` is here a plain map, see `solveLpPool` for the
scheduling of the workers. `bench` stands for the measured times. -/
def solveLp (solver : Solver) (bench : Benchmark) (s : Study) : Except PyErr Result := do
  let outs ← (List.range s.nbScn).mapM (solveBatch solver s)
  mapResults s outs (OutputMapper.init s bench)

/-! ### What the calls to the solver mean (ortools semantics, trusted) -/

namespace Cmd

/-- the coefficient set on constraint `r` by a call -/
def coefOf (r : RowId) : Cmd → Option (Var × ℚ)
  | .setCoef r' v c => if r' = r then some (v, c) else none
  | _ => none

/-- the coefficient set on the objective by a call -/
def objOf : Cmd → Option (Var × ℚ)
  | .setObj v c => some (v, c)
  | _ => none

/-- the coefficients of a constraint: `SetCoefficient` on the same variable overrides -/
def coefs (log : List Cmd) (r : RowId) : Dict Var ℚ := Dict.ofList (log.filterMap (coefOf r))

/-- the coefficients of the objective -/
def objCoefs (log : List Cmd) : Dict Var ℚ := Dict.ofList (log.filterMap objOf)

/-- value of a linear form -/
def value (d : Dict Var ℚ) (x : Var → ℚ) : ℚ := (d.map fun p => p.2 * x p.1).sum

/-- all variables within the bounds declared by `NumVar`; nothing is below `-inf` -/
def InBounds (log : List Cmd) (x : Var → ℚ) : Prop :=
  (∀ v lb ub, .numVar v lb ub ∈ log → lb ≤ x v ∧ x v ≤ ub) ∧
  ∀ v lb pos, .numVarInf v lb pos ∈ log → lb ≤ x v ∧ pos = true

/-- all variables within their bounds, all constraints within theirs -/
def Feasible (log : List Cmd) (x : Var → ℚ) : Prop :=
  InBounds log x ∧
  ∀ r lo hi, .constraint r lo hi ∈ log → lo ≤ value (coefs log r) x ∧ value (coefs log r) x ≤ hi

/-- value of the objective -/
def objective (log : List Cmd) (x : Var → ℚ) : ℚ := value (objCoefs log) x

/-- a feasible solution with the least objective -/
def Optimal (log : List Cmd) (x : Var → ℚ) : Prop :=
  Feasible log x ∧ ∀ y, Feasible log y → objective log x ≤ objective log y

end Cmd

end Hadar
