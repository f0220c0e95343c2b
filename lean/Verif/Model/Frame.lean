import Verif.Model.Output
import Mathlib.Data.List.Sort
import Mathlib.Data.List.Dedup

/-!
# The part of pandas used by `hadar/analyzer/result.py`

A `DataFrame` with the default index: named columns of cells. What is written here about pandas (1.x)
and numpy is trusted.
-/

namespace Hadar

/-- a value in a dataframe: float (a number, an infinity or NaN) or string -/
inductive Cell where
  | num (q : ℚ)
  | str (s : String)
  | inf (neg : Bool)
  | nan
  deriving DecidableEq, Repr

namespace Cell

/-- arithmetic on floats: NaN propagates. Simplification: an operation on strings, which would raise or
concatenate, gives NaN, and so does an operation on infinities (only `max` of intakes has some, and it is not
used in any operation). -/
def map2 (f : ℚ → ℚ → ℚ) : Cell → Cell → Cell
  | .num a, .num b => .num (f a b)
  | _, _ => .nan

def sub : Cell → Cell → Cell := map2 (· - ·)
def mul : Cell → Cell → Cell := map2 (· * ·)

/-- `a / b` on floats: dividing by zero gives an infinity, or NaN for zero by zero. Simplification: zero has no sign, and
see `map2` for infinities. -/
def div : Cell → Cell → Cell
  | .num a, .num b => if b = 0 then if a = 0 then .nan else .inf (decide (a < 0)) else .num (a / b)
  | _, _ => .nan

/-- the numbers of a column -/
def nums (l : List Cell) : List ℚ := l.filterMap fun c => match c with
  | .num q => some q
  | _ => none

/-- the signs of the infinities of a column -/
def infs (l : List Cell) : List Bool := l.filterMap fun c => match c with
  | .inf neg => some neg
  | _ => none

/-- mean of a column (`skipna`): infinite when some values are, NaN when there are both infinities -/
def mean (l : List Cell) : Cell :=
  match infs l with
  | neg :: rest => if ∀ x ∈ rest, x = neg then .inf neg else .nan
  | [] => match nums l with
    | [] => .nan
    | qs => .num (qs.sum / qs.length)

/-- order used to sort keys: numbers (infinities are the least and the highest), then strings by code points, then NaN -/
def le : Cell → Cell → Bool
  | .inf true, _ => true
  | .num _, .inf neg => !neg
  | .num a, .num b => decide (a ≤ b)
  | .num _, _ => true
  | .inf false, .inf neg => !neg
  | .inf false, .num _ => false
  | .inf false, _ => true
  | .str a, .str b => decide (a ≤ b)
  | .str _, .nan => true
  | .str _, _ => false
  | .nan, .nan => true
  | .nan, _ => false

/-- lexicographic order on keys -/
def keyLe : List Cell → List Cell → Bool
  | [], _ => true
  | _ :: _, [] => false
  | a :: l, b :: m => if a = b then keyLe l m else a.le b

end Cell

/-- what is assigned to a slice: one value, or one value per row -/
inductive Fill where
  | all (c : Cell)
  | each (l : List Cell)

/-- an array of floats -/
def Fill.nums (l : List ℚ) : Fill := .each (l.map .num)

/-- a dataframe: number of rows, columns (with `true` for floats, `false` for objects), cells -/
structure Frame where
  size : ℕ
  names : List (String × Bool)
  cell : String → ℕ → Cell

namespace Frame

/-- the column exists -/
def Has (f : Frame) (col : String) : Prop := col ∈ f.names.map Prod.fst

instance (f : Frame) (col : String) : Decidable (f.Has col) := by unfold Has; infer_instance

/-- `df.loc[df.index[a:b], col] = v`. The slice is cut at the end of the index; an array must have the
length of the slice. A column that does not exist is created, with NaN in the other rows.
Simplification: pandas may accept an array of any length when the slice is empty, and some versions repeat
an array of one value. -/
def assign (a b : ℕ) (f : Frame) (p : String × Fill) : Except PyErr Frame :=
  let b := min b f.size
  let set := fun v : ℕ → Cell =>
    { f with
      names := if f.Has p.1 then f.names else f.names ++ [(p.1, true)]
      cell := fun c i =>
        if c = p.1 then
          if a ≤ i ∧ i < b then v (i - a) else if f.Has p.1 then f.cell c i else .nan
        else f.cell c i }
  match p.2 with
  | .all c => .ok (set fun _ => c)
  | .each l =>
    if l.length = b - a then .ok (set fun i => l.getD i .nan)
    else .error .valueError

/-- successive assignments on the same slice -/
def assignAll (a b : ℕ) (l : List (String × Fill)) (f : Frame) : Except PyErr Frame :=
  l.foldlM (assign a b) f

/-- a row, as the list of its cells with the names of the columns -/
def row (f : Frame) (i : ℕ) : Dict String Cell := f.names.map fun c => (c.1, f.cell c.1 i)

/-- all rows -/
def rows (f : Frame) : List (Dict String Cell) := (List.range f.size).map f.row

/-- The loop common to the builders of tables: for each element, assign on the block of rows of the
element; `next` is what becomes of the counter at the end of the body. -/
def fillBlocks {α : Type} (blk : ℕ) (next : ℕ → ℕ) (data : α → Except PyErr (List (String × Fill))) :
    List α → ℕ → Frame → Except PyErr Frame
  | [], _, f => .ok f
  | e :: es, n, f => do
    let l ← data e
    let f' ← assignAll (n * blk) ((n + 1) * blk) l f
    fillBlocks blk next data es (next n) f'

end Frame

/-- `np.arange(n)` -/
def arange (n : ℕ) : List ℚ := (List.range n).map fun i : ℕ => (i : ℚ)

/-- sum of `v` over the rows with the same `(scn, t)`, sorted by `(scn, t)`: `groupby(...).sum()` with
`sort_index`, or `pivot_table(index=["scn", "t"], aggfunc=np.sum)`. Rows with a NaN key are dropped, NaN
values are skipped. -/
def groupSum (rows : List (Cell × Cell × Cell)) : List ((Cell × Cell) × ℚ) :=
  let rows := rows.filter fun r => r.1 ≠ .nan ∧ r.2.1 ≠ .nan
  let keys := ((rows.map fun r => [r.1, r.2.1]).dedup).insertionSort (fun a b => Cell.keyLe a b = true)
  keys.map fun k => ((k.getD 0 .nan, k.getD 1 .nan),
    (Cell.nums ((rows.filter fun r => [r.1, r.2.1] = k).map fun r => r.2.2)).sum)

/-- `values.reshape(n, h)` -/
def reshape (n h : ℕ) (l : List ℚ) : Except PyErr NdArray :=
  if hl : l.length = n * h then .ok ⟨[n, h], l, by simpa using hl⟩ else .error .valueError

/-- an operation on two arrays of the same shape. Simplification: no broadcasting, other shapes
raise. -/
def NdArray.zip (f : ℚ → ℚ → ℚ) (a b : NdArray) : Except PyErr NdArray :=
  if h : a.shape = b.shape then
    .ok ⟨a.shape, List.zipWith f a.data b.data, by
      rw [List.length_zipWith, a.wf, b.wf, h, Nat.min_self]⟩
  else .error .valueError

end Hadar
