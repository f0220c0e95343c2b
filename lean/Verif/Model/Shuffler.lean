import Verif.Model.Pipeline
import Verif.Model.Pool

/-!
# The shuffler (workflow/shuffler.py)

`Timeline` objects are called `Source` here (`Timeline` is the data frame of a pipeline). Pipelines are
those of the session `PipeWorld`, held by reference. The sampler is any function of the random state; what becomes of
the default sampler in the workers is in Model/Sampling.
-/

namespace Hadar

/-- a matrix with shape (scenario, horizon), row by row -/
abbrev Rows : Type := List (List Val)

/-- a sampler called as `sampler(low, high, size)`; `np.random.randint` is `npRandint g`. Simplification:
`size` is a natural number. -/
abbrev Sampler (σ : Type) : Type := ℤ → ℤ → ℕ → PyM (Rand σ) (List ℤ)

/-- Where data comes from: `Timeline` (shuffler.py 23-31), `TimelinePipeline` (shuffler.py 60-71), which
keeps the data frame and the pipeline -/
inductive Origin where
  | raw (data : Rows)
  | pipe (df : Timeline) (p : ℕ)

/-- `Timeline` (shuffler.py 18-52) and `TimelinePipeline` (shuffler.py 55-83): attribute `data`, `none` until
computed, and the origin. The sampler is given when sampling. -/
structure Source where
  data : Option Rows
  origin : Origin

/-- `data[sampling]` (shuffler.py 44): rows at the given indexes, negative indexes count from the end -/
def gather (d : Rows) (sampling : List ℤ) : Except PyErr Rows :=
  sampling.mapM fun z =>
    if -(d.length : ℤ) ≤ z ∧ z < d.length then
      .ok (d.getD (if z < 0 then z + d.length else z).toNat [])
    else .error .indexError

/-- `TimelinePipeline.compute` (shuffler.py 79-83) once the pipeline has run: `Index.drop` raises `KeyError`
when the label is not there; `drop_columns.any()` on an index of names is whether one of them is not the
empty string -/
def toShufflerRows (res : Timeline) : Except PyErr Rows :=
  if "to_shuffler" ∈ res.names then
    let dropColumns := res.names.filter fun n => decide (n ≠ "to_shuffler")
    let kept := if dropColumns.any fun n => decide (n ≠ "") then
        res.cols.filter fun c => !decide (c.1.2 ∈ dropColumns)
      else res.cols
    .ok (kept.map (·.2))
  else .error .keyError

/-- `Timeline.compute` (shuffler.py 46-52), `TimelinePipeline.compute` (shuffler.py 73-83) -/
def Origin.compute {σ : Type} (g : Rng σ) (w : PipeWorld σ) : Origin → PyM (Rand σ) Rows
  | .raw d => PyM.pure d
  | .pipe df p => fun r =>
    match w.callPipe g p (.multi df, r) with
    | (.ok t, s) => (toShufflerRows t, s.2)
    | (.error e, s) => (.error e, s.2)

/-- `Timeline.sample` (shuffler.py 33-44): data is computed once and kept -/
def Source.sample {σ : Type} (g : Rng σ) (w : PipeWorld σ) (sampler : Sampler σ) (nb : ℕ) :
    PyM (Source × Rand σ) Rows := fun s =>
  let computed : Except PyErr Rows × Rand σ := match s.1.data with
    | some d => (.ok d, s.2)
    | none => s.1.origin.compute g w s.2
  match computed with
  | (.error e, r) => (.error e, (s.1, r))
  | (.ok d, r) =>
    match sampler 0 d.length nb r with
    | (.error e, r') => (.error e, ({ s.1 with data := some d }, r'))
    | (.ok sampling, r') => (gather d sampling, ({ s.1 with data := some d }, r'))

/-- `Shuffler.timelines` (shuffler.py 103-110) -/
abbrev Shuffler : Type := Dict String Source

namespace Shuffler

/-- `add_data` (shuffler.py 112-121) -/
def addData (name : String) (data : Rows) : PyM Shuffler Unit :=
  PyM.modify fun s => s.set name ⟨some data, .raw data⟩

/-- `Pipeline.assert_computable`, `Pipeline.assert_to_shuffler` (pipeline.py 217-237) on a labelled frame -/
def check {σ : Type} (w : PipeWorld σ) (p : ℕ) (t : Timeline) : Except PyErr Unit :=
  match w.pipes[p]? with
  | none => .error .valueError
  | some (plug, _) =>
    if plug.computable t.names then
      if "to_shuffler" ∈ plug.outputs w.outs then .ok () else .error .valueError
    else .error .valueError

/-- `add_pipeline` (shuffler.py 123-136); the frame of the caller is labelled in place -/
def addPipeline {σ : Type} (w : PipeWorld σ) (name : String) (p : ℕ) : PyM (Data × Shuffler) Unit :=
  fun s =>
    match check w p s.1.timeline with
    | .error e => (.error e, (.multi s.1.timeline, s.2))
    | .ok () => (.ok (), (.multi s.1.timeline, s.2.set name ⟨none, .pipe s.1.timeline p⟩))

/-- `compute` (shuffler.py 86-94) in a worker, on a copy of the timeline; the random state of the worker is
whatever it is when the item is run -/
def task {σ : Type} (g : Rng σ) (w : PipeWorld σ) (sampler : Sampler σ) (nb : ℕ) (env : ℕ → Rand σ)
    (item : (String × Source) × ℕ) : Except PyErr (String × Rows) := do
  let rows ← (Source.sample g w sampler nb (item.1.2, env item.2)).1
  .ok (item.1.1, rows)

/-- `shuffle` (shuffler.py 138-150): `Pool.map` over the timelines, with chunks of `size` items that finish in
the order `order` (see Model/Pool.lean), then `dict(res)`. `env i` is the random state of the worker that
runs the `i`-th item. The timelines of the shuffler itself are not changed: workers have copies. -/
def shuffle {σ : Type} (g : Rng σ) (w : PipeWorld σ) (sampler : Sampler σ) (env : ℕ → Rand σ) (size : ℕ)
    (order : List ℕ) (s : Shuffler) (nb : ℕ) : Except PyErr (Dict String Rows) := do
  let res ← Pool.map (task g w sampler nb env) size order (List.zipIdx s)
  .ok (Dict.ofList res)

end Shuffler

end Hadar
