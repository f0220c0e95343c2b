import Verif.Model.Json

/-!
# `hadar/optimizer/domain/numeric.py`
-/

namespace Hadar

/-- The four implementations of `NumericalValue` (numeric.py 55, 98, 115, 136) and their `value`
field. -/
inductive NumKind where
  | scalar (q : ℚ)
  | matrix (a : NdArray)
  | row (a : NdArray)
  | column (a : NdArray)
  deriving DecidableEq, Repr

/-- `NumericalValue` (numeric.py 23-26): value, horizon, nb_scn. -/
structure NumVal where
  kind : NumKind
  horizon : ℕ
  nbScn : ℕ
  deriving DecidableEq, Repr

namespace NumVal

/-- `__getitem__((i, j))` of the four classes (numeric.py 60-70, 103-105, 120-126, 141-147). -/
def getitem (v : NumVal) (i j : ℤ) : Except PyErr ℚ :=
  match v.kind with
  | .scalar q =>
    if i ≥ v.nbScn then .error .indexError
    else if j ≥ v.horizon then .error .indexError
    else .ok q
  | .matrix a => a.get2 i j
  | .row a =>
    if i ≥ v.nbScn then .error .indexError
    else a.get1 j
  | .column a =>
    if j ≥ v.horizon then .error .indexError
    else a.get2 i 0

/-- `__lt__(other)` with a number (numeric.py 72-73, 91-92): `np.all(self.value < other)`, which is
`True` on an empty array. -/
def lt (v : NumVal) (x : ℚ) : Bool :=
  match v.kind with
  | .scalar q => q < x
  | .matrix a | .row a | .column a => a.data.all (fun q => decide (q < x))

/-- `__gt__(other)` with a number (numeric.py 75-76, 94-95). -/
def gt (v : NumVal) (x : ℚ) : Bool :=
  match v.kind with
  | .scalar q => q > x
  | .matrix a | .row a | .column a => a.data.all (fun q => decide (q > x))

/-- `__le__` (numeric.py 36-37) -/
def le (v : NumVal) (x : ℚ) : Bool := !(v.gt x)

/-- `__ge__` (numeric.py 43-44) -/
def ge (v : NumVal) (x : ℚ) : Bool := !(v.lt x)

/-- `np.tile(l, n)` of a 1-D array -/
def tile (l : List ℚ) (n : ℕ) : List ℚ := (List.replicate n l).flatten

/-- `np.repeat(l, h)` of a 1-D array -/
def repeatEach (l : List ℚ) (h : ℕ) : List ℚ := l.flatMap (fun q => List.replicate h q)

/-- `flatten()` of the four classes (numeric.py 78-79, 107-108, 128-129, 149-150). Simplification:
`np.tile` on a hand-made row value that is not 1-D is not distinguished. -/
def flatten (v : NumVal) : List ℚ :=
  match v.kind with
  | .scalar q => (List.replicate (v.horizon * v.nbScn) 1).map (· * q)
  | .matrix a => a.data
  | .row a => tile a.data v.nbScn
  | .column a => repeatEach a.data v.horizon

end NumVal

/-- What a user may pass where a quantity is expected (numeric.py 167-169): a Python number, an
already built `NumericalValue`, a numpy array (or DataFrame or Series, which numeric.py 184-185
turns into one), nested lists or a decoded JSON dict, or anything else (string, None, bool, numpy
scalar). -/
inductive Raw where
  | num (q : ℚ)
  | val (v : NumVal)
  | array (a : NdArray)
  | json (j : Json)
  | other

/-- `NumericalValueFactory` (numeric.py 157-165) -/
structure Factory where
  horizon : ℕ
  nbScn : ℕ
  deriving DecidableEq, Repr

namespace Factory

/-- numeric.py 187-214: dispatch on the shape of an array; a 0-d array makes the error message
itself raise `IndexError` (line 207). -/
def ofArray (f : Factory) (a : NdArray) : Except PyErr NumVal :=
  if a.shape = [f.horizon] then .ok ⟨.row a, f.horizon, f.nbScn⟩
  else if a.shape = [f.nbScn, 1] then .ok ⟨.column a, f.horizon, f.nbScn⟩
  else if a.shape = [f.nbScn, f.horizon] then .ok ⟨.matrix a, f.horizon, f.nbScn⟩
  else if a.shape = [] then .error .indexError
  else .error .valueError

/-- numeric.py 177-216 on an unwrapped Python number, list, string, ... -/
def ofJson (f : Factory) : Json → Except PyErr NumVal
  | .num q => .ok ⟨.scalar q, f.horizon, f.nbScn⟩
  | .arr l => do
    let a ← Json.toNd (.arr l)
    f.ofArray a
  | _ => .error .valueError

/-- `create` (numeric.py 167-216) -/
def create (f : Factory) : Raw → Except PyErr NumVal
  | .val v => .ok v
  | .num q => .ok ⟨.scalar q, f.horizon, f.nbScn⟩
  | .array a => f.ofArray a
  | .json (.obj o) =>
    match Dict.get? o "value" with
    | some j => f.ofJson j
    | none => .error .valueError
  | .json j => f.ofJson j
  | .other => .error .valueError

end Factory

end Hadar
