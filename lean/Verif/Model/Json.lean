import Verif.Model.Base

/-!
# JSON values and numpy arrays

JSON trees are what `json.dumps`/`json.loads` carry between Python objects; arrays are what numpy
stores: a shape and the elements in row-major order.
-/

namespace Hadar

/-- Decoded JSON (the Python objects `json.loads` builds). Booleans are not produced by hadar and
are left out. The last two constructors are not JSON: they are what the `from_json` functions, which
work in place, may leave inside a decoded object. `tobj` is a dict whose keys are tuples of strings,
`native` any other Python object (an `OutputNode`, a `NumericalValue`, ...). -/
inductive Json where
  | null
  | num (q : ℚ)
  | str (s : String)
  | arr (l : List Json)
  | obj (l : List (String × Json))
  | tobj (l : List (List String × Json))
  | native
  deriving Repr

/-- A numpy array of numbers: shape and row-major data. -/
structure NdArray where
  shape : List ℕ
  data : List ℚ
  wf : data.length = shape.prod
  deriving DecidableEq, Repr

namespace NdArray

/-- 1-D array of a list -/
def vec (l : List ℚ) : NdArray := ⟨[l.length], l, by simp⟩

/-- numpy index rule along an axis of size `m`: `-m ≤ i < m`, negative counts from the end -/
def axisIndex (m : ℕ) (i : ℤ) : Except PyErr ℕ :=
  if 0 ≤ i then
    if i < m then .ok i.toNat else .error .indexError
  else
    if -(m : ℤ) ≤ i then .ok (i + m).toNat else .error .indexError

/-- `a[j]` on a 1-D array (numpy). Simplification: on an array of another dimension numpy would
return a sub-array or raise; the model raises. -/
def get1 (a : NdArray) (j : ℤ) : Except PyErr ℚ :=
  match a.shape with
  | [m] => do
    let j ← axisIndex m j
    match a.data[j]? with
    | some q => .ok q
    | none => .error .indexError
  | _ => .error .typeError

/-- `a[i, j]` on a 2-D array (numpy); same simplification as `get1`. -/
def get2 (a : NdArray) (i j : ℤ) : Except PyErr ℚ :=
  match a.shape with
  | [m, k] => do
    let i ← axisIndex m i
    let j ← axisIndex k j
    match a.data[i * k + j]? with
    | some q => .ok q
    | none => .error .indexError
  | _ => .error .typeError

end NdArray

/-- cut a list in `n` consecutive rows of length `k` -/
def chunks {α : Type} : ℕ → ℕ → List α → List (List α)
  | 0, _, _ => []
  | n + 1, k, l => l.take k :: chunks n k (l.drop k)

namespace Json

/-- `ndarray.tolist()` for arrays of any dimension: nested lists along the shape. -/
def ofNdAux : List ℕ → List ℚ → Json
  | [], l => match l with
    | q :: _ => .num q
    | [] => .null
  | n :: sh, l => .arr ((chunks n sh.prod l).map (ofNdAux sh))

def ofNd (a : NdArray) : Json := ofNdAux a.shape a.data

/-- stack rows along a new first axis: all rows must have the same shape -/
def stackRows : List (List ℕ × List ℚ) → Option (List ℕ × List ℚ)
  | [] => some ([0], [])
  | r :: rs =>
    if rs.all (fun r' => decide (r'.1 = r.1)) then
      some ((rs.length + 1) :: r.1, ((r :: rs).map Prod.snd).flatten)
    else none

mutual
/-- `np.array(nested list)`: shape and data; `none` when the nesting is ragged or an element is
not a number. Simplification: numpy would build an array of strings or objects for non-numbers;
here this is an error (the code then fails on the first comparison or arithmetic). -/
def nd? : Json → Option (List ℕ × List ℚ)
  | .num q => some ([], [q])
  | .arr l =>
    match ndAll? l with
    | some rows => stackRows rows
    | none => none
  | _ => none
/-- shape and data of each row -/
def ndAll? : List Json → Option (List (List ℕ × List ℚ))
  | [] => some []
  | x :: xs =>
    match nd? x, ndAll? xs with
    | some r, some rs => some (r :: rs)
    | _, _ => none
end

/-- `np.array(j)` -/
def toNd (j : Json) : Except PyErr NdArray :=
  match nd? j with
  | some (sh, d) => if h : d.length = sh.prod then .ok ⟨sh, d, h⟩ else .error .valueError
  | none => .error .valueError

end Json

end Hadar
