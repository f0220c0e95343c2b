import Verif.Model.Frame

/-!
# The workflow pipeline (workflow/pipeline.py)

Data frames, plugs, stages and pipelines. Three kinds of state are kept apart:

* the data frame of the caller, whose columns `standardize_column` overwrites (`Data`);
* the random numbers of numpy and of the operating system (`Rand`), about which nothing is assumed but
  what `Rng.Lawful` (Spec/Pipeline.lean) says;
* the Python objects of the workflow (`PipeWorld`): plugs share their *lists* of output names, which
  `RestrictedPlug.__add__` extends in place, and pipelines share their lists of stages. A list is a
  place in a heap.

Values are exact rationals or NaN (`none`); infinities are not modelled. Pandas and numpy are not in
/repo: what is said here of `DataFrame.clip`, `drop`, `reindex`, column assignment, `np.tile`,
`np.random` is part of the trusted base.
-/

namespace Hadar

/-- a value of a data frame, `none` is NaN -/
abbrev Val : Type := Option ℚ

/-- A data frame with the columns of one scenario: row labels, then columns with their name.
(`timeline[scn]`, pipeline.py 393; also a frame given with plain column names) -/
structure Scen where
  index : List Cell
  cols : List (String × List Val)
  deriving DecidableEq

/-- A data frame with columns labelled `(scenario, name)`: row labels, then columns. Duplicated labels
are possible. Simplification: names are strings. -/
structure Timeline where
  index : List Cell
  cols : List ((Cell × String) × List Val)
  deriving DecidableEq

/-- A data frame as given by the user: with plain columns, or with `(scenario, name)` columns
(pipeline.py 192, 288) -/
inductive Data where
  | plain (f : Scen)
  | multi (t : Timeline)

/-- `Index.unique()`: the values in order of first appearance -/
def unique {α : Type} [DecidableEq α] : List α → List α
  | [] => []
  | a :: l => a :: (unique l).filter (· ≠ a)

/-- `RangeIndex(n)`: labels given by pandas to a frame built without index -/
def rangeIndex (n : ℕ) : List Cell := (List.range n).map fun i : ℕ => Cell.num (i : ℚ)

namespace Timeline

/-- `Stage.get_scenarios` (pipeline.py 341-343) -/
def scenarios (t : Timeline) : List Cell := unique (t.cols.map (·.1.1))

/-- `Stage.get_names` (pipeline.py 345-347) -/
def names (t : Timeline) : List String := unique (t.cols.map (·.1.2))

/-- `timeline[scn]` (pipeline.py 393) -/
def sub (t : Timeline) (scn : Cell) : Scen where
  index := t.index
  cols := (t.cols.filter (·.1.1 = scn)).map fun c => (c.1.2, c.2)

end Timeline

/-- `Stage.standardize_column` (pipeline.py 304-319): the frame with scenario labels; plain columns get
scenario 0 -/
def Data.timeline : Data → Timeline
  | .plain f => { index := f.index, cols := f.cols.map fun c => ((Cell.num 0, c.1), c.2) }
  | .multi t => t

/-- `Stage.build_multi_index` (pipeline.py 321-339):
`MultiIndex.from_arrays([np.repeat(scenarios, n_names), np.tile(names, n_scn)])` -/
def buildMultiIndex (scenarios : List Cell) (names : List String) : List (Cell × String) :=
  List.zip (scenarios.flatMap fun s => List.replicate names.length s)
    ((List.replicate scenarios.length names).flatten)

/-! ### Random numbers -/

/-- The generator of numpy: `np.random.seed`, the sum of `np.random.choice([0, 1], size, p)` and
`np.random.randint`. -/
structure Rng (σ : Type) where
  seed : ℕ → σ
  count : ℚ → ℕ → σ → ℕ × σ
  randint : ℤ → ℤ → ℕ → σ → List ℤ × σ

/-- The state of numpy's global generator and what `os.urandom(4)` will give next -/
structure Rand (σ : Type) where
  np : σ
  os : ℕ → Fin (2 ^ 32)

/-- `np.random.seed(z)`: raises unless `0 <= z < 2**32` -/
def npSeed {σ : Type} (g : Rng σ) (z : ℤ) : PyM (Rand σ) Unit := fun r =>
  if 0 ≤ z ∧ z < 2 ^ 32 then (.ok (), { r with np := g.seed z.toNat }) else (.error .valueError, r)

/-- `np.random.seed(int.from_bytes(os.urandom(4), byteorder="little"))` (pipeline.py 292) -/
def reseed {σ : Type} (g : Rng σ) : PyM (Rand σ) Unit := fun r =>
  (.ok (), { np := g.seed (r.os 0).val, os := fun i => r.os (i + 1) })

/-- `np.random.choice([0, 1], size=n, p=[1 - f, f]).sum()`: raises unless `f` is a probability -/
def npCount {σ : Type} (g : Rng σ) (f : ℚ) (n : ℕ) : PyM (Rand σ) ℕ := fun r =>
  if 0 ≤ f ∧ f ≤ 1 then (.ok (g.count f n r.np).1, { r with np := (g.count f n r.np).2 })
  else (.error .valueError, r)

/-- `np.random.randint(low, high, size)`: raises when there is something to draw from nothing -/
def npRandint {σ : Type} (g : Rng σ) (low high : ℤ) (size : ℕ) : PyM (Rand σ) (List ℤ) := fun r =>
  if size = 0 then (.ok [], r)
  else if high ≤ low then (.error .valueError, r)
  else (.ok (g.randint low high size r.np).1, { r with np := (g.randint low high size r.np).2 })

/-! ### Plugs -/

/-- Place of a list of names -/
abbrev Ref := ℕ

/-- The lists of output names of the plugs -/
abbrev Heap := List (List String)

/-- `FreePlug` (pipeline.py 75-105) and `RestrictedPlug` (pipeline.py 108-153); the list of outputs is
held by reference, the list of inputs is never mutated by the code -/
inductive Plug where
  | free
  | restricted (inputs : List String) (out : Ref)

namespace Plug

/-- `plug.inputs` -/
def inputs : Plug → List String
  | free => []
  | restricted i _ => i

/-- `plug.outputs` -/
def outputs (h : Heap) : Plug → List String
  | free => []
  | restricted _ o => h.getD o []

/-- `Plug.computable` (pipeline.py 44-51) -/
def computable (p : Plug) (names : List String) : Bool := p.inputs.all fun i => decide (i ∈ names)

/-- `FreePlug.linkable_to` (pipeline.py 86-94), `RestrictedPlug.linkable_to` (pipeline.py 124-134) -/
def linkable (h : Heap) : Plug → Plug → Bool
  | free, _ => true
  | restricted _ _, free => true
  | restricted i o, restricted i' _ => i'.all fun e => decide (e ∈ (restricted i o).outputs h)

/-- `deepcopy(plug)` -/
def deepcopy : Plug → PyM Heap Plug
  | free => PyM.pure free
  | restricted i o => fun h => (.ok (restricted i h.length), h ++ [h.getD o []])

/-- `FreePlug.__add__` (pipeline.py 96-105), `RestrictedPlug.__add__` (pipeline.py 136-153): the latter
extends the list of the next plug in place and shares it -/
def add : Plug → Plug → PyM Heap Plug
  | free, q => deepcopy q
  | restricted i o, free => PyM.pure (restricted i o)
  | restricted i o, restricted i' o' => fun h =>
    (.ok (restricted i o'),
      h.set o' (h.getD o' [] ++ (h.getD o []).filter fun e => !decide (e ∈ i')))

end Plug

/-! ### Stages -/

/-- A stage (pipeline.py 240-302): its plug and `_process_timeline`. The latter may read
`self.plug.outputs`, whose present content is its first argument. -/
structure Stage (σ : Type) where
  plug : Plug
  process : List String → Timeline → PyM (Rand σ) Timeline

/-- `Stage.standardize_column` (pipeline.py 304-319) on the frame of the caller: its columns are
overwritten when plain -/
def standardize {σ : Type} : PyM (Data × Rand σ) Timeline := fun s =>
  (.ok s.1.timeline, (.multi s.1.timeline, s.2))

/-- run a computation that only touches the random state -/
def onRand {σ α : Type} (m : PyM (Rand σ) α) : PyM (Data × Rand σ) α := fun s =>
  ((m s.2).1, (s.1, (m s.2).2))

/-- `Stage.__call__` (pipeline.py 281-302) -/
def Stage.call {σ : Type} (g : Rng σ) (h : Heap) (st : Stage σ) : PyM (Data × Rand σ) Timeline := do
  let t ← standardize
  onRand (reseed g)
  if st.plug.computable t.names then onRand (st.process (st.plug.outputs h) t)
  else PyM.raise .valueError

/-- `for stage in self.stages: timeline = stage(timeline.copy())` (pipeline.py 203-204) -/
def callStages {σ : Type} (g : Rng σ) (h : Heap) : List (Stage σ) → Timeline → PyM (Rand σ) Timeline
  | [], t => PyM.pure t
  | st :: rest, t => fun r =>
    match st.call g h (.multi t, r) with
    | (.ok t', s) => callStages g h rest t' s.2
    | (.error e, s) => (.error e, s.2)

/-- `Pipeline.__call__` (pipeline.py 192-206), `assert_computable` (pipeline.py 208-219) -/
def callPipeline {σ : Type} (g : Rng σ) (h : Heap) (plug : Plug) (stages : List (Stage σ)) :
    PyM (Data × Rand σ) Timeline := do
  let t ← standardize
  if plug.computable t.names then onRand (callStages g h stages t)
  else PyM.raise .valueError

/-! #### The stages of the library -/

/-- `value.clip(lower, upper)` of pandas on one value: NaN stays, and bounds given in the wrong order
are swapped -/
def clipValue (lower upper : Option ℚ) : Val → Val
  | none => none
  | some q => match lower, upper with
    | none, none => some q
    | some l, none => some (max l q)
    | none, some u => some (min u q)
    | some l, some u => some (min (max l u) (max (min l u) q))

/-- `Clip._process_timeline` (pipeline.py 397-414) -/
def clipProcess {σ : Type} (lower upper : Option ℚ) (_ : List String) (t : Timeline) :
    PyM (Rand σ) Timeline :=
  PyM.pure { t with cols := t.cols.map fun c => (c.1, c.2.map (clipValue lower upper)) }

/-- `Rename._rename` (pipeline.py 440-447) -/
def renameName (rename : Dict String String) (name : String) : String :=
  (rename.get? name).getD name

/-- `Rename._process_timeline` (pipeline.py 436-438) -/
def renameProcess {σ : Type} (rename : Dict String String) (_ : List String) (t : Timeline) :
    PyM (Rand σ) Timeline :=
  PyM.pure { t with cols := t.cols.map fun c => ((c.1.1, renameName rename c.1.2), c.2) }

/-- `Drop._process_timeline` (pipeline.py 479-480): pandas raises `KeyError` on a name that is no column.
Simplification: pandas 1.0 also raises on an empty list of names. -/
def dropProcess {σ : Type} (names : List String) (_ : List String) (t : Timeline) :
    PyM (Rand σ) Timeline :=
  if names.all fun n => decide (n ∈ t.names) then
    PyM.pure { t with cols := t.cols.filter fun c => !decide (c.1.2 ∈ names) }
  else PyM.raise .keyError

/-- `RepeatScenario._process_timeline` (pipeline.py 549-558): the columns are repeated `n` times
(`np.tile`), relabelled by the product of the new scenarios and the names, and the row labels are lost;
pandas raises `ValueError` when the numbers of columns and labels differ. Simplification: `n` is a
natural number. -/
def repeatProcess {σ : Type} (n : ℕ) (_ : List String) (t : Timeline) : PyM (Rand σ) Timeline :=
  let data := (List.replicate n (t.cols.map (·.2))).flatten
  let index := buildMultiIndex (rangeIndex (t.scenarios.length * n)) t.names
  if data.length = index.length then
    PyM.pure { index := rangeIndex t.index.length, cols := List.zip index data }
  else PyM.raise .valueError

/-- the rows of a column as found under the labels `0, 1, ..., n-1` (`DataFrame.reindex` along rows) -/
def reindexRows (n : ℕ) (index : List Cell) (v : List Val) : List Val :=
  (rangeIndex n).map fun l => (v.getD (index.idxOf l) none)

/-- `output[scn] = value` for the zero frame `output` of `FocusStage._process_timeline`
(pipeline.py 386-393): pandas puts the columns of `value` in the order of `output[scn]` (NaN for a column
that `value` lacks; `ValueError` when columns of `value` are duplicated), then its rows in the order of the
row labels of `output`, which are `0, 1, ..., n-1` (NaN for a label that `value` lacks; `ValueError` when
row labels of `value` are duplicated). Simplifications: with no declared output the assignment raises
`ValueError`; this is pandas 1.0 to 1.2, from 1.3 on pandas also raises `ValueError` when `value` has another
number of columns than declared outputs (what is proved of stages supposes that nothing is raised, so it
holds for these versions too). -/
def assignScenario (n : ℕ) (outputs : List String) (value : Scen) :
    Except PyErr (List (String × List Val)) :=
  if outputs = [] then .error .valueError
  else if value.cols.map (·.1) ≠ outputs ∧ ¬ (value.cols.map (·.1)).Nodup then .error .valueError
  else
    let cols := if value.cols.map (·.1) = outputs then value.cols
      else outputs.map fun o => (o, (Dict.get? value.cols o).getD (List.replicate value.index.length none))
    if value.index = rangeIndex n then .ok cols
    else if n = 0 then .error .valueError
    else if ¬ value.index.Nodup then .error .valueError
    else .ok (cols.map fun c => (c.1, reindexRows n value.index c.2))

/-- the loop `for scn in scenarios: output[scn] = process(scn, timeline[scn].copy())`
(pipeline.py 392-393): the columns of `output`, scenario after scenario -/
def focusLoop {σ : Type} (process : Cell → Scen → PyM (Rand σ) Scen) (outputs : List String)
    (t : Timeline) : List Cell → PyM (Rand σ) (List ((Cell × String) × List Val))
  | [] => PyM.pure []
  | scn :: rest => do
    let v ← process scn (t.sub scn)
    let cols ← PyM.lift (assignScenario t.index.length outputs v)
    let tail ← focusLoop process outputs t rest
    PyM.pure (cols.map (fun c => ((scn, c.1), c.2)) ++ tail)

/-- `FocusStage._process_timeline` (pipeline.py 375-394) -/
def focusProcess {σ : Type} (process : Cell → Scen → PyM (Rand σ) Scen) (outputs : List String)
    (t : Timeline) : PyM (Rand σ) Timeline := do
  let cols ← focusLoop process outputs t t.scenarios
  PyM.pure { index := rangeIndex t.index.length, cols := cols }

/-- bound of a Python slice on a sequence of length `n` -/
def sliceBound (n : ℕ) (i : ℤ) : ℕ := if i < 0 then (i + n).toNat else min i.toNat n

/-- `loss_qt[begin:end] += loss` (pipeline.py 528) -/
def addSlice (v : List ℚ) (b e : ℤ) (x : ℚ) : List ℚ :=
  v.mapIdx fun i q => if sliceBound v.length b ≤ i ∧ i < sliceBound v.length e then q + x else q

/-- `a - b` of floats, NaN propagates -/
def subVal (a : Val) (b : ℚ) : Val := a.map (· - b)

/-- `scenario["quantity"] -= loss_qt` (pipeline.py 531): `KeyError` without such a column. Simplification:
several columns of that name raise `ValueError`. -/
def subtractQuantity (loss : List ℚ) (s : Scen) : Except PyErr Scen :=
  match s.cols.filter fun c => c.1 = "quantity" with
  | [] => .error .keyError
  | [_] => .ok { s with cols := s.cols.map fun c =>
      if c.1 = "quantity" then (c.1, List.zipWith subVal c.2 loss) else c }
  | _ => .error .valueError

/-- The parameters of `Fault` (pipeline.py 488-511) -/
structure FaultParams where
  loss : ℚ
  occurFreq : ℚ
  downtimeMin : ℤ
  downtimeMax : ℤ
  seed : Option ℤ

/-- `if self.seed: np.random.seed(self.seed)` (pipeline.py 514-515): `None` and 0 are false -/
def faultSeed {σ : Type} (g : Rng σ) : Option ℤ → PyM (Rand σ) Unit
  | none => PyM.pure ()
  | some z => if z = 0 then PyM.pure () else npSeed g z

/-- `for begin, duration in zip(...): loss_qt[begin:begin + duration] += self.loss`
(pipeline.py 521-528) -/
def lossOf (loss : ℚ) (horizon : ℕ) (faults : List (ℤ × ℤ)) : List ℚ :=
  faults.foldl (fun v f => addSlice v f.1 (f.1 + f.2) loss) (List.replicate horizon 0)

/-- `Fault._process_scenarios` (pipeline.py 513-532) -/
def faultScenario {σ : Type} (g : Rng σ) (p : FaultParams) (_ : Cell) (s : Scen) :
    PyM (Rand σ) Scen := do
  faultSeed g p.seed
  let nb ← npCount g p.occurFreq s.index.length
  let begins ← npRandint g 0 s.index.length nb
  let durations ← npRandint g p.downtimeMin p.downtimeMax nb
  PyM.lift (subtractQuantity (lossOf p.loss s.index.length (List.zip begins durations)) s)

/-! ### Objects -/

/-- The Python objects of a session: lists of output names, stages, lists of stages, pipelines (plug and
list of stages). Objects are never freed. -/
structure PipeWorld (σ : Type) where
  outs : Heap
  stages : List (Stage σ)
  lists : List (List ℕ)
  pipes : List (Plug × ℕ)

namespace PipeWorld

variable {σ : Type}

/-- a new session -/
def empty : PipeWorld σ := ⟨[], [], [], []⟩

/-- create a stage with a free plug -/
def newFree (process : List String → Timeline → PyM (Rand σ) Timeline) : PyM (PipeWorld σ) ℕ := fun w =>
  (.ok w.stages.length, { w with stages := w.stages ++ [⟨.free, process⟩] })

/-- create a stage with a restricted plug -/
def newRestricted (inputs outputs : List String)
    (process : List String → Timeline → PyM (Rand σ) Timeline) : PyM (PipeWorld σ) ℕ := fun w =>
  (.ok w.stages.length, { w with
    outs := w.outs ++ [outputs]
    stages := w.stages ++ [⟨.restricted inputs w.outs.length, process⟩] })

/-- `Clip(lower, upper)` (pipeline.py 402-411) -/
def newClip (lower upper : Option ℚ) : PyM (PipeWorld σ) ℕ := newFree (clipProcess lower upper)

/-- `Rename(**kwargs)` (pipeline.py 422-434) -/
def newRename (rename : Dict String String) : PyM (PipeWorld σ) ℕ :=
  newRestricted rename.keys (rename.map (·.2)) (renameProcess rename)

/-- `ToShuffler(result_name)` (pipeline.py 450-460) -/
def newToShuffler (name : String) : PyM (PipeWorld σ) ℕ := newRename [(name, "to_shuffler")]

/-- `Drop(names)` (pipeline.py 463-477) -/
def newDrop (names : List String) : PyM (PipeWorld σ) ℕ := newRestricted names [] (dropProcess names)

/-- `Fault(loss, occur_freq, downtime_min, downtime_max, seed)` (pipeline.py 488-511) -/
def newFault (g : Rng σ) (p : FaultParams) : PyM (PipeWorld σ) ℕ :=
  newRestricted ["quantity"] ["quantity"] (focusProcess (faultScenario g p))

/-- `RepeatScenario(n)` (pipeline.py 540-547) -/
def newRepeat (n : ℕ) : PyM (PipeWorld σ) ℕ := newFree (repeatProcess n)

/-- the user makes a list of stages -/
def newList (l : List ℕ) : PyM (PipeWorld σ) ℕ := fun w =>
  (.ok w.lists.length, { w with lists := w.lists ++ [l] })

/-- the stages in list `l` (unknown places cannot occur in Python) -/
def stagesOf (w : PipeWorld σ) (l : ℕ) : List (Stage σ) := (w.lists.getD l []).filterMap (w.stages[·]?)

end PipeWorld

/-- the loop of `Pipeline.__init__` (pipeline.py 172-180): `acc` is `self.plug`, `curr` the plug of the
present stage -/
def linkAll (acc curr : Plug) : List Plug → PyM Heap Plug
  | [] => PyM.pure acc
  | next :: rest => fun h =>
    if curr.linkable h next then
      match acc.add next h with
      | (.ok acc', h') => linkAll acc' next rest h'
      | (.error e, h') => (.error e, h')
    else (.error .valueError, h)

namespace PipeWorld

variable {σ : Type}

/-- `Pipeline(stages)` (pipeline.py 161-180) for the list of stages `l`, which the pipeline keeps -/
def newPipeline (l : ℕ) : PyM (PipeWorld σ) ℕ := fun w =>
  match (w.stagesOf l).map (·.plug) with
  | [] => (.error .indexError, w)
  | p :: rest =>
    match linkAll p p rest w.outs with
    | (.ok plug, h) => (.ok w.pipes.length, { w with outs := h, pipes := w.pipes ++ [(plug, l)] })
    | (.error e, h) => (.error e, { w with outs := h })

/-- `stage + stage` (pipeline.py 255-269). Adding anything but a stage raises and is left out. -/
def stageAdd (a b : ℕ) : PyM (PipeWorld σ) ℕ := do
  let l ← newList [a, b]
  newPipeline l

/-- `pipeline + stage` (pipeline.py 182-200): the pipeline itself is changed, and returned -/
def pipeAdd (p s : ℕ) : PyM (PipeWorld σ) ℕ := fun w =>
  match w.pipes[p]?, w.stages[s]? with
  | some (plug, l), some st =>
    if plug.linkable w.outs st.plug then
      match plug.add st.plug w.outs with
      | (.ok plug', h) => (.ok p, { w with
          outs := h
          lists := w.lists.modify l (· ++ [s])
          pipes := w.pipes.set p (plug', l) })
      | (.error e, h) => (.error e, { w with outs := h })
    else (.error .valueError, w)
  | _, _ => (.error .valueError, w)

/-- `stage(data)` (pipeline.py 281-302) -/
def callStage (g : Rng σ) (w : PipeWorld σ) (s : ℕ) : PyM (Data × Rand σ) Timeline :=
  match w.stages[s]? with
  | some st => st.call g w.outs
  | none => PyM.raise .valueError

/-- `pipeline(data)` (pipeline.py 192-206) -/
def callPipe (g : Rng σ) (w : PipeWorld σ) (p : ℕ) : PyM (Data × Rand σ) Timeline :=
  match w.pipes[p]? with
  | some (plug, l) => callPipeline g w.outs plug (w.stagesOf l)
  | none => PyM.raise .valueError

end PipeWorld

end Hadar
