import Verif.Model.Sampling
import Verif.Spec.Shuffler

/-!
# What the default sampler draws (C106)
-/

namespace Hadar.Spec

variable {σ : Type}

/-- the data of a timeline: given, or computed by its pipeline in a worker in state `r` -/
def HasData (g : Rng σ) (w : PipeWorld σ) (r : Rand σ) (src : Source) (d : Rows) : Prop :=
  src.data = some d ∨ src.data = none ∧ (src.origin.compute g w r).1 = .ok d

/-- the indexes drawn among `n` rows, by a generator in state `st` -/
def draws (g : Rng σ) (nb n : ℕ) (st : σ) : List ℤ := if nb = 0 then [] else (g.randint 0 n nb st).1

/-- and the state it is left in -/
def drawn (g : Rng σ) (nb n : ℕ) (st : σ) : σ := if nb = 0 then st else (g.randint 0 n nb st).2

/-- all timelines are raw data -/
def AllRaw (s : Shuffler) : Prop := ∀ p ∈ s, ∃ d, p.2.data = some d

end Hadar.Spec
