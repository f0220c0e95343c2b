import Verif.Model.Clock

/-!
# What the measured times mean
-/

namespace Hadar.Spec

open Hadar

/-- C112: the times of a run: for each scenario, the time until its problem was built, and until it was solved, both since its worker began -/
structure Measures (c : Clocks) (n : ℕ) (b : Benchmark) : Prop where
  modelers : b.modeler.length = n
  solvers : b.solver.length = n
  modeler : ∀ k < n, b.modeler[k]? = some ((c.worker k).built - (c.worker k).start)
  solver : ∀ k < n, b.solver[k]? = some ((c.worker k).solved - (c.worker k).start)
  mapper : b.mapper = c.endMapper - c.finished
  total : b.total = c.endTotal - c.start

/-- C112: a clock that never goes back; workers run between the start and the end of the computation -/
structure Forward (c : Clocks) (n : ℕ) : Prop where
  begins : ∀ k < n, c.start ≤ (c.worker k).start
  built : ∀ k < n, (c.worker k).start ≤ (c.worker k).built
  solved : ∀ k < n, (c.worker k).built ≤ (c.worker k).solved
  ends : ∀ k < n, (c.worker k).solved ≤ c.finished
  finished : c.start ≤ c.finished
  total : c.finished ≤ c.endTotal
  mapper : c.endTotal ≤ c.endMapper

/-- C112: the numbers of a benchmark as a reader takes them: the time spent to build and the time spent in the solver, scenario by scenario, and the
time spent to write the result, all within the total -/
structure Consistent (c : Clocks) (n : ℕ) (b : Benchmark) : Prop where
  spent : ∀ k < n, b.solver[k]? = some ((c.worker k).solved - (c.worker k).built)
  within : b.mapper ≤ b.total

end Hadar.Spec
