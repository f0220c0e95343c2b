import Verif.Model.Special

/-!
# What data with numbers that are not finite says (independent of the code)
-/

namespace Hadar.Spec

open Hadar

/-- `x` is one of the numbers given -/
def GivesNum : FlRaw → Fl → Prop
  | .num y, x => x = y
  | .array _ d, x => x ∈ d

/-- the data has one of the three shapes, with the numbers to fill it, or is a number -/
def FitsNum (h n : ℕ) : FlRaw → Prop
  | .num _ => True
  | .array shape d => (shape = [h] ∨ shape = [n, 1] ∨ shape = [n, h]) ∧ d.length = shape.prod

/-- what the data says for a scenario and a time -/
def SaysNum (h n : ℕ) (raw : FlRaw) (i j : ℕ) (x : Fl) : Prop :=
  match raw with
  | .num y => x = y
  | .array shape d =>
    (shape = [h] ∧ d[j]? = some x) ∨ (shape ≠ [h] ∧ shape = [n, 1] ∧ d[i]? = some x) ∨
      (shape ≠ [h] ∧ shape ≠ [n, 1] ∧ shape = [n, h] ∧ d[i * h + j]? = some x)

/-- below zero: negative, infinite or not -/
def Below0 : Fl → Prop
  | .minf => True
  | .fin q => q < 0
  | _ => False

/-- above one -/
def Above1 : Fl → Prop
  | .inf => True
  | .fin q => 1 < q
  | _ => False

/-- a number of the other modules -/
def ofFinite : NumVal → FlVal
  | ⟨.scalar q, h, n⟩ => ⟨.scalar (.fin q), h, n⟩
  | ⟨.matrix a, h, n⟩ => ⟨.matrix (a.data.map .fin), h, n⟩
  | ⟨.row a, h, n⟩ => ⟨.row (a.data.map .fin), h, n⟩
  | ⟨.column a, h, n⟩ => ⟨.column (a.data.map .fin), h, n⟩

end Hadar.Spec
