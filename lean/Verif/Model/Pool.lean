import Verif.Model.LP

/-!
# `multiprocessing.Pool.map` as used by `solve_lp` (lp/optimizer.py 450-453)

`solve_lp` calls `pool.map(_solve_batch, ((study, i) for i in range(nb_scn)))`. The pool is the one of
CPython (`Lib/multiprocessing/pool.py`, `Pool._get_tasks`, `mapstar` and `MapResult`), which is not in
/repo: what is written here is part of the trusted base. The items are cut into chunks of consecutive
items; a chunk is run by one worker, item after item, and stops at the first exception; chunks finish in
any order; the results of a chunk are put at the place of the chunk; the first failure that comes in is
what `map` raises once all chunks are in.
-/

namespace Hadar

namespace Pool

/-- number of chunks -/
def nbChunks (size n : ℕ) : ℕ := (n + size - 1) / size

/-- the `i`-th chunk -/
def chunk {α : Type} (size : ℕ) (items : List α) (i : ℕ) : List α := (items.drop (i * size)).take size

/-- `MapResult`: the list of values and the first failure -/
structure MapResult (β : Type) where
  slots : List (Option β)
  failure : Option PyErr

/-- `MapResult._set(i, (success, result))` -/
def MapResult.set {β : Type} (size : ℕ) (m : MapResult β) (i : ℕ) (r : Except PyErr (List β)) :
    MapResult β :=
  match m.failure with
  | some _ => m
  | none =>
    match r with
    | .ok l =>
      { m with slots := m.slots.take (i * size) ++ l.map some ++ m.slots.drop ((i + 1) * size) }
    | .error e => { m with failure := some e }

/-- what `map` returns once all chunks are in; a slot left empty would be `None`, on which the caller
raises `TypeError` -/
def MapResult.get {β : Type} (m : MapResult β) : Except PyErr (List β) :=
  match m.failure with
  | some e => .error e
  | none => m.slots.mapM fun o => match o with
    | some b => .ok b
    | none => .error .typeError

/-- `pool.map(f, items)` when the chunks finish in the order `order` -/
def map {α β : Type} (f : α → Except PyErr β) (size : ℕ) (order : List ℕ) (items : List α) :
    Except PyErr (List β) :=
  (order.foldl (fun m i => MapResult.set size m i ((chunk size items i).mapM f))
    (MapResult.mk (List.replicate items.length none) none)).get

end Pool

/-- `solve_lp` (lp/optimizer.py 437-489) with the workers finishing in the order `order` -/
def solveLpPool (size : ℕ) (order : List ℕ) (solver : Solver) (bench : Benchmark) (s : Study) :
    Except PyErr Result := do
  let outs ← Pool.map (solveBatch solver s) size order (List.range s.nbScn)
  mapResults s outs (OutputMapper.init s bench)

end Hadar
