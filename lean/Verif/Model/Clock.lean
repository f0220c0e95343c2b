import Verif.Model.Pool

/-!
# Measured times (`Result.benchmark`)

Clocks are read with `time.time()`. What they read is a parameter; nothing is assumed about it here.
-/

namespace Hadar

/-- what the clock reads in one call of `_solve_batch` (lp/optimizer.py 355, 401, 407): at the start, once the problem is built, once it is
solved -/
structure WorkerClock where
  start : ℚ
  built : ℚ
  solved : ℚ
  deriving DecidableEq, Repr

/-- what the clock reads in one run of `solve_lp` (lp/optimizer.py 445, 455, 484, 485), and in the worker of each scenario -/
structure Clocks where
  start : ℚ
  finished : ℚ
  endTotal : ℚ
  endMapper : ℚ
  worker : ℕ → WorkerClock

/-- `_solve_batch` (lp/optimizer.py 347-419) with its times: the variables, `problem_build - start`, `problem_solved - start` -/
def timedBatch (solver : Solver) (s : Study) (c : Clocks) (k : ℕ) : Except PyErr (List (LPTimeStep ℚ) × ℚ × ℚ) := do
  let vars ← solveBatch solver s k
  pure (vars, (c.worker k).built - (c.worker k).start, (c.worker k).solved - (c.worker k).start)

/-- one scenario in the loop of `solve_lp` (lp/optimizer.py 457-482): times are appended to the benchmark, variables are written in the result -/
def collectOne (s : Study) (outs : List (List (LPTimeStep ℚ) × ℚ × ℚ)) (p : Benchmark × Result) (scn : ℕ) : Except PyErr (Benchmark × Result) :=
  match outs[scn]? with
  | some out => do
    let r' ← mapScenario s scn out.1 p.2
    pure (⟨p.1.modeler ++ [out.2.1], p.1.solver ++ [out.2.2], p.1.mapper, p.1.total⟩, r')
  | none => .error .indexError

/-- the loop over scenarios of `solve_lp` (lp/optimizer.py 456-482) -/
def collect (s : Study) (outs : List (List (LPTimeStep ℚ) × ℚ × ℚ)) (b : Benchmark) (r : Result) : Except PyErr (Benchmark × Result) :=
  (List.range s.nbScn).foldlM (collectOne s outs) (b, r)

/-- `Benchmark()` (output.py 238-248) -/
def Benchmark.new : Benchmark := ⟨[], [], 0, 0⟩

/-- `solve_lp` (lp/optimizer.py 437-489) with its workers and its times. The total is read before the time of the mapper. -/
def solveLpTimed (c : Clocks) (size : ℕ) (order : List ℕ) (solver : Solver) (s : Study) : Except PyErr Result := do
  let outs ← Pool.map (timedBatch solver s c) size order (List.range s.nbScn)
  let (b, r) ← collect s outs Benchmark.new (OutputMapper.init s Benchmark.new)
  pure { r with benchmark := { b with total := c.endTotal - c.start, mapper := c.endMapper - c.finished } }

end Hadar
