import Verif.Spec.Shuffler
import Verif.Spec.Study

/-!
# What is expected of series given by the shuffler when a study is built with them
-/

namespace Hadar.Spec

/-- the rows given by the shuffler are this numpy array of numbers: `h` values in each row, no NaN -/
structure RowsArray (rows : Rows) (h : ℕ) (a : NdArray) : Prop where
  shape : a.shape = [rows.length, h]
  lengths : ∀ row ∈ rows, row.length = h
  data : rows.flatten = a.data.map some

/-- in each scenario the series follows one of the given rows, over the whole horizon -/
def Follows (h n : ℕ) (own : Rows) (v : NumVal) : Prop :=
  ∀ k : ℕ, k < n → ∃ row ∈ own, ∀ t : ℕ, t < h → ∃ q : ℚ, row[t]? = some (some q) ∧ v.getitem k t = .ok q

/-- every row of the data has `h` values, none of which is NaN -/
def FullRows (h : ℕ) (own : Rows) : Prop := ∀ row ∈ own, row.length = h ∧ none ∉ row

end Hadar.Spec
