import Verif.Model.Numeric

/-!
# Numbers that are not finite (`hadar/optimizer/domain/numeric.py` and the checks of `hadar/optimizer/domain/input.py`)

The other modules take finite numbers. Here a number given to the API is any float: the lines that look at numbers are written again with
infinities and NaN. The rest of these calls (names, nodes) is in Model/Study.lean.
-/

namespace Hadar

/-- a Python float, or an entry of a numpy array of floats. Roundings are left out. -/
inductive Fl where
  | nan
  | minf
  | fin (q : ℚ)
  | inf
  deriving DecidableEq, Repr

/-- `x < y` of floats (IEEE 754, as Python and numpy do): false as soon as one is NaN -/
def Fl.lt : Fl → Fl → Bool
  | .nan, _ => false
  | _, .nan => false
  | .minf, .minf => false
  | .minf, _ => true
  | .fin _, .minf => false
  | .fin a, .fin b => decide (a < b)
  | .fin _, .inf => true
  | .inf, _ => false

/-- `x > y` -/
def Fl.gt (x y : Fl) : Bool := y.lt x

/-- what is given for a quantity: a number, or an array with its shape and its entries row by row (numeric.py 177-185) -/
inductive FlRaw where
  | num (x : Fl)
  | array (shape : List ℕ) (data : List Fl)

/-- the four implementations of `NumericalValue` (numeric.py 55, 98, 115, 136) with their `value` -/
inductive FlKind where
  | scalar (x : Fl)
  | matrix (data : List Fl)
  | row (data : List Fl)
  | column (data : List Fl)

/-- `NumericalValue` (numeric.py 23-26) -/
structure FlVal where
  kind : FlKind
  horizon : ℕ
  nbScn : ℕ

namespace FlVal

/-- `__lt__` (numeric.py 72-73, 91-92) -/
def lt (v : FlVal) (x : Fl) : Bool :=
  match v.kind with
  | .scalar y => y.lt x
  | .matrix d | .row d | .column d => d.all fun y => y.lt x

/-- `__gt__` (numeric.py 75-76, 94-95) -/
def gt (v : FlVal) (x : Fl) : Bool :=
  match v.kind with
  | .scalar y => y.gt x
  | .matrix d | .row d | .column d => d.all fun y => y.gt x

/-- `__le__` (numeric.py 36-37) -/
def le (v : FlVal) (x : Fl) : Bool := !(v.gt x)

/-- `__ge__` (numeric.py 43-44) -/
def ge (v : FlVal) (x : Fl) : Bool := !(v.lt x)

/-- `__getitem__((i, j))` (numeric.py 60-70, 103-105, 120-126, 141-147). Simplification: indexes that are not negative. -/
def getitem (v : FlVal) (i j : ℕ) : Except PyErr Fl :=
  match v.kind with
  | .scalar x =>
    if i ≥ v.nbScn then .error .indexError
    else if j ≥ v.horizon then .error .indexError
    else .ok x
  | .matrix d =>
    if i ≥ v.nbScn then .error .indexError
    else if j ≥ v.horizon then .error .indexError
    else (d[i * v.horizon + j]?).elim (.error .indexError) .ok
  | .row d =>
    if i ≥ v.nbScn then .error .indexError
    else (d[j]?).elim (.error .indexError) .ok
  | .column d =>
    if j ≥ v.horizon then .error .indexError
    else (d[i]?).elim (.error .indexError) .ok

end FlVal

namespace Factory

/-- `create` (numeric.py 167-216) on a number or an array -/
def createFl (f : Factory) : FlRaw → Except PyErr FlVal
  | .num x => .ok ⟨.scalar x, f.horizon, f.nbScn⟩
  | .array shape d =>
    if shape = [f.horizon] then .ok ⟨.row d, f.horizon, f.nbScn⟩
    else if shape = [f.nbScn, 1] then .ok ⟨.column d, f.horizon, f.nbScn⟩
    else if shape = [f.nbScn, f.horizon] then .ok ⟨.matrix d, f.horizon, f.nbScn⟩
    else if shape = [] then .error .indexError
    else .error .valueError

/-- the quantity of a link (input.py 344-346), of a production (371-373) and of a consumption (384-386): made, then refused if below 0 -/
def quantityFl (f : Factory) (raw : FlRaw) : Except PyErr FlVal := do
  let v ← f.createFl raw
  if v.lt (.fin 0) then .error .valueError else pure v

/-- the numbers of `_add_storage` (input.py 395-408): flows, capacity and efficiency -/
def storageFl (f : Factory) (flowIn flowOut capacity eff : FlRaw) (init : Fl) : Except PyErr (FlVal × FlVal × FlVal × FlVal) := do
  let i ← f.createFl flowIn
  let o ← f.createFl flowOut
  if i.lt (.fin 0) || o.lt (.fin 0) then .error .valueError
  else
    let c ← f.createFl capacity
    if c.lt (.fin 0) || init.lt (.fin 0) then .error .valueError
    else
      let e ← f.createFl eff
      if e.lt (.fin 0) || e.gt (.fin 1) then .error .valueError
      else pure (i, o, c, e)

end Factory

end Hadar
