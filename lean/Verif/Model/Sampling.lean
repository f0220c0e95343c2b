import Verif.Model.Shuffler

/-!
# The default sampler of the shuffler in the workers (workflow/shuffler.py)

`numpy.random.randint`, the default sampler, is a method bound to the generator of numpy. `Pool.map` sends each chunk
of items to a worker by `pickle`, which writes a bound method as the object and the name of the method, and the
generator as its state: the sampler a worker gets is bound to a new generator, in the state the generator of the
calling process has when the chunk is sent. The timelines of one chunk are pickled together and share this generator.
The global generator of the worker, which stages use, is another one. The generator of the calling process does not
move. This behaviour of `pickle`, `multiprocessing` and `numpy` is not in /repo and is part of the trusted base.
`Shuffler.shuffle` (Model/Shuffler) is for samplers that draw from the global generator of the worker, or from none.
-/

namespace Hadar

namespace Pool

/-- `pool.map` when a chunk is run by `run`: `Pool.map` is the case of items run one by one without common state -/
def mapChunks {α β : Type} (run : List α → Except PyErr (List β)) (size : ℕ) (order : List ℕ) (items : List α) :
    Except PyErr (List β) :=
  (order.foldl (fun m i => MapResult.set size m i (run (chunk size items i)))
    (MapResult.mk (List.replicate items.length none) none)).get

/-- the size of chunks chosen by `Pool.map` (`Pool._map_async`): `divmod(len(items), 4 * processes)`, rounded up -/
def chunkSize (n processes : ℕ) : ℕ := n / (4 * processes) + if n % (4 * processes) = 0 then 0 else 1

end Pool

/-- `Timeline.sample` (shuffler.py 33-44) in a worker: the pipeline draws from the global generator of the worker, in
`r`, the default sampler from its own generator, which is in state `st` and is left in the state given back -/
def Source.sampleApart {σ : Type} (g : Rng σ) (w : PipeWorld σ) (nb : ℕ) (r : Rand σ) (src : Source) (st : σ) :
    Except PyErr Rows × σ :=
  match match src.data with
    | some d => Except.ok d
    | none => (src.origin.compute g w r).1 with
  | .error e => (.error e, st)
  | .ok d =>
    match npRandint g 0 d.length nb ⟨st, r.os⟩ with
    | (.error e, r') => (.error e, r'.np)
    | (.ok sampling, r') => (gather d sampling, r'.np)

namespace Shuffler

/-- a chunk in a worker: `compute` (shuffler.py 86-94) on each timeline, up to the first that raises; the sampler
starts in state `st` -/
def chunkApart {σ : Type} (g : Rng σ) (w : PipeWorld σ) (nb : ℕ) (env : ℕ → Rand σ) :
    σ → List ((String × Source) × ℕ) → Except PyErr (List (String × Rows))
  | _, [] => .ok []
  | st, item :: items =>
    match Source.sampleApart g w nb (env item.2) item.1.2 st with
    | (.error e, _) => .error e
    | (.ok rows, st') => do
      let l ← chunkApart g w nb env st' items
      .ok ((item.1.1, rows) :: l)

/-- `shuffle` (shuffler.py 138-150) with the default sampler: the state is that of the generator of the calling
process, which does not move -/
def shuffleApart {σ : Type} (g : Rng σ) (w : PipeWorld σ) (env : ℕ → Rand σ) (size : ℕ) (order : List ℕ)
    (s : Shuffler) (nb : ℕ) : PyM σ (Dict String Rows) := fun st =>
  (do
    let res ← Pool.mapChunks (chunkApart g w nb env st) size order (List.zipIdx s)
    .ok (Dict.ofList res), st)

end Shuffler

end Hadar
