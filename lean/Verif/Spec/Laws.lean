import Verif.Spec.Pipeline

/-!
# Stages that can be swapped or put together (independent of the code)
-/

namespace Hadar.Spec

variable {σ : Type}

/-- `s` is a stage that was made by `mk` at some time of the session -/
def MadeBy (mk : PyM (PipeWorld σ) ℕ) (w : PipeWorld σ) (s : ℕ) : Prop :=
  ∃ w0 w1, mk w0 = (.ok s, w1) ∧ w1.stages[s]? = w.stages[s]?

/-- what is got by calling stages one after the other, each on what the one before gave -/
def inTurn (g : Rng σ) (w : PipeWorld σ) : List ℕ → Data → Rand σ → Except PyErr Timeline
  | [], d, _ => .ok d.timeline
  | s :: rest, d, r => match w.callStage g s (d, r) with
    | (.ok t, x) => inTurn g w rest (.multi t) x.2
    | (.error e, _) => .error e

/-- the higher of two lower bounds, when given -/
def higher : Option ℚ → Option ℚ → Option ℚ
  | some a, some b => some (max a b)
  | a, none => a
  | none, b => b

/-- the lower of two upper bounds, when given -/
def lower : Option ℚ → Option ℚ → Option ℚ
  | some a, some b => some (min a b)
  | a, none => a
  | none, b => b

end Hadar.Spec
