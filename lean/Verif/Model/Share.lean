import Verif.Model.Numeric

/-!
# Who owns the arrays (numeric.py 167-216)

The other modules treat values as immutable. Here the arrays of the caller are objects in a memory, that the
caller may change in place after having given them to the API.
-/

namespace Hadar

/-- an argument given where a quantity is expected: a number, a list, a decoded JSON dict, a DataFrame or a Series
(`.array`, since `np.array` copies it, numeric.py 184-185), or a numpy array object of the caller, by reference -/
inductive Arg where
  | value (r : Raw)
  | shared (ref : ℕ)

/-- which of the three classes holds the array (numeric.py 98, 115, 136) -/
inductive HeldKind where
  | matrix
  | row
  | column
  deriving DecidableEq, Repr

/-- a `NumericalValue` object: one that owns its value, or one whose `value` field is the array of the caller
(numeric.py 190-204 pass `value=value` without copy, and line 25 stores it) -/
inductive Held where
  | own (v : NumVal)
  | shared (kind : HeldKind) (ref horizon nbScn : ℕ)
  deriving DecidableEq, Repr

/-- the arrays of the caller -/
abbrev Mem : Type := List NdArray

/-- what a `NumericalValue` object is now -/
def Held.read (mem : Mem) : Held → Option NumVal
  | .own v => some v
  | .shared kind ref h n =>
    match mem[ref]? with
    | none => none
    | some a => some ⟨match kind with
      | .matrix => .matrix a
      | .row => .row a
      | .column => .column a, h, n⟩

/-- `create` (numeric.py 167-216) with objects; the shape is read now, the values stay where they are. (A
reference always exists in Python; otherwise `NameError`, here `keyError`.) -/
def Factory.hold (f : Factory) (mem : Mem) : Arg → Except PyErr Held
  | .value r =>
    match f.create r with
    | .ok v => .ok (.own v)
    | .error e => .error e
  | .shared ref =>
    match mem[ref]? with
    | none => .error .keyError
    | some a =>
      if a.shape = [f.horizon] then .ok (.shared .row ref f.horizon f.nbScn)
      else if a.shape = [f.nbScn, 1] then .ok (.shared .column ref f.horizon f.nbScn)
      else if a.shape = [f.nbScn, f.horizon] then .ok (.shared .matrix ref f.horizon f.nbScn)
      else if a.shape = [] then .error .indexError
      else .error .valueError

/-- `a.flat[i] = q` (numpy); out of range leaves the array as it is (`IndexError`) -/
def NdArray.assign (a : NdArray) (i : ℕ) (q : ℚ) : NdArray :=
  ⟨a.shape, a.data.set i q, by rw [List.length_set, a.wf]⟩

/-- what happens in a session: a value is given to the API, or the caller changes one of their arrays in place -/
inductive ShareOp where
  | give (a : Arg)
  | assign (ref i : ℕ) (q : ℚ)

/-- the arrays of the caller, and the values stored by the API one after the other -/
structure Shared where
  mem : Mem
  held : List Held

/-- one step; a refused value stores nothing -/
def Shared.step (f : Factory) (s : Shared) : ShareOp → Shared
  | .give a =>
    match f.hold s.mem a with
    | .ok v => { s with held := s.held ++ [v] }
    | .error _ => s
  | .assign ref i q => { s with mem := s.mem.modify ref fun a => a.assign i q }

def Shared.run (f : Factory) (s : Shared) (ops : List ShareOp) : Shared := ops.foldl (Shared.step f) s

end Hadar
