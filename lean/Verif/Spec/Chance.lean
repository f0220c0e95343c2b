import Mathlib.Algebra.BigOperators.Ring.Finset
import Mathlib.Data.Nat.Choose.Basic
import Mathlib.Data.Int.Interval
import Mathlib.Data.Fintype.BigOperators
import Verif.Spec.Pipeline

/-!
# Chances of faults (independent of the code)

What may happen is a finite set `Ω`, with a weight for each case.
-/

namespace Hadar.Spec

open Hadar

variable {Ω : Type} [Fintype Ω]

/-- C116: weights of cases: not negative, 1 in all -/
structure CaseWeights (w : Ω → ℚ) : Prop where
  nonneg : ∀ ω, 0 ≤ w ω
  total : ∑ ω, w ω = 1

/-- C116: chance that something happens -/
def chance (w : Ω → ℚ) (P : Ω → Prop) [DecidablePred P] : ℚ := ∑ ω, if P ω then w ω else 0

/-- C116: mean of a number -/
def mean (w : Ω → ℚ) (x : Ω → ℚ) : ℚ := ∑ ω, w ω * x ω

/-- C116: a fault that may be drawn: begins at one of `h` steps, lasts from `lo` to `hi - 1` steps -/
def Possible (h : ℕ) (lo hi : ℤ) (x : ℤ × ℤ) : Prop := (0 ≤ x.1 ∧ x.1 < h) ∧ lo ≤ x.2 ∧ x.2 < hi

/-- C116: faults drawn as they should be: at each of `h` steps one more fault with chance `f`, apart from each other;
for each fault, a beginning among `h` steps and a duration among `hi - lo`, all as likely, apart from each other. So the
chance of a list of faults depends on their number `k` only: the chance of `k` among `h`, then one in `h * (hi - lo)` for
each. -/
structure FairFaults (w : Ω → ℚ) (f : ℚ) (h : ℕ) (lo hi : ℤ) (F : Ω → List (ℤ × ℤ)) : Prop where
  weights : CaseWeights w
  possible : ∀ ω, (F ω).length ≤ h ∧ ∀ x ∈ F ω, Possible h lo hi x
  law : ∀ l : List (ℤ × ℤ), l.length ≤ h → (∀ x ∈ l, Possible h lo hi x) →
    chance w (fun ω => F ω = l) =
      h.choose l.length * f ^ l.length * (1 - f) ^ (h - l.length) * (1 / ((h : ℚ) * ((hi : ℚ) - lo))) ^ l.length

/-- C116: mean, over durations, of the number of steps before step `i`, itself included, that a fault going on at step
`i` may have begun at -/
def reach (lo hi : ℤ) (i : ℕ) : ℚ := (∑ d ∈ Finset.Ico lo hi, (min d (i + 1) : ℤ)) / ((hi : ℚ) - lo)

/-- C116: faults that a generator draws for one scenario of `h` steps, and the state it is left in (pipeline.py 519-526) -/
def drawnFaults {σ : Type} (g : Rng σ) (p : FaultParams) (h : ℕ) (s : σ) : List (ℤ × ℤ) × σ :=
  let c := g.count p.occurFreq h s
  if c.1 = 0 then ([], c.2)
  else
    let b := g.randint 0 h c.1 c.2
    let d := g.randint p.downtimeMin p.downtimeMax c.1 b.2
    (b.1.zip d.1, d.2)

/-- C116: state of the generator when the scenario number `k` is dealt with -/
def stateAt {σ : Type} (g : Rng σ) (p : FaultParams) (h : ℕ) (s : σ) : ℕ → σ
  | 0 => s
  | k + 1 => (drawnFaults g p h (stateAt g p h s k)).2

end Hadar.Spec
