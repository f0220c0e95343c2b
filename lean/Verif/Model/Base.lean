import Mathlib.Algebra.Order.Ring.Rat
import Mathlib.Data.List.Basic

/-!
# Base of the model: Python exceptions, state + exception monad, dictionaries

Shared by all model files. Python floats and ints are modelled by exact rationals `ℚ`.
-/

namespace Hadar

/-- The Python exceptions raised by the modelled code (only the class is kept, not the message). -/
inductive PyErr where
  | valueError | keyError | indexError | typeError | zeroDivisionError | ioError
  | serverError | attributeError | nameError
  deriving DecidableEq, Repr

/-- A Python computation over a mutable state `σ`: an exception keeps the mutations made before it
was raised (as in Python, and unlike a transaction). -/
def PyM (σ α : Type) : Type := σ → Except PyErr α × σ

namespace PyM
variable {σ α β : Type}

def pure (a : α) : PyM σ α := fun s => (.ok a, s)

def bind (m : PyM σ α) (f : α → PyM σ β) : PyM σ β := fun s =>
  match m s with
  | (.ok a, s') => f a s'
  | (.error e, s') => (.error e, s')

instance : Monad (PyM σ) where
  pure := PyM.pure
  bind := PyM.bind

/-- `raise e` -/
def raise (e : PyErr) : PyM σ α := fun s => (.error e, s)

/-- read the mutable state -/
def get : PyM σ σ := fun s => (.ok s, s)

/-- mutate the state -/
def modify (f : σ → σ) : PyM σ Unit := fun s => (.ok (), f s)

/-- evaluate a pure expression that may raise -/
def lift (e : Except PyErr α) : PyM σ α := fun s => (e, s)

@[simp] theorem pure_run (a : α) (s : σ) : (Pure.pure a : PyM σ α) s = (.ok a, s) := rfl
@[simp] theorem bind_run (m : PyM σ α) (f : α → PyM σ β) (s : σ) :
    (m >>= f) s = match m s with
      | (.ok a, s') => f a s'
      | (.error e, s') => (.error e, s') := rfl
@[simp] theorem raise_run (e : PyErr) (s : σ) : (raise e : PyM σ α) s = (.error e, s) := rfl
@[simp] theorem get_run (s : σ) : (get : PyM σ σ) s = (.ok s, s) := rfl
@[simp] theorem modify_run (f : σ → σ) (s : σ) : modify f s = (.ok (), f s) := rfl
@[simp] theorem lift_run (e : Except PyErr α) (s : σ) : lift e s = (e, s) := rfl

end PyM

/-- A Python `dict`: insertion-ordered association list. -/
abbrev Dict (K V : Type) : Type := List (K × V)

namespace Dict
variable {K V : Type} [DecidableEq K]

/-- `d.get(k)` -/
def get? : Dict K V → K → Option V
  | [], _ => none
  | (k', v) :: d, k => if k' = k then some v else get? d k

/-- `d[k]`, raising `KeyError` -/
def getE (d : Dict K V) (k : K) : Except PyErr V :=
  match get? d k with
  | some v => .ok v
  | none => .error .keyError

/-- `d[k] = v`: replaces in place, or appends at the end -/
def set : Dict K V → K → V → Dict K V
  | [], k, v => [(k, v)]
  | (k', v') :: d, k, v => if k' = k then (k', v) :: d else (k', v') :: set d k v

/-- mutate the object stored at `k` (nothing happens when absent: callers raise first) -/
def modify : Dict K V → K → (V → V) → Dict K V
  | [], _, _ => []
  | (k', v') :: d, k, f => if k' = k then (k', f v') :: d else (k', v') :: modify d k f

/-- `k in d` -/
def contains (d : Dict K V) (k : K) : Bool := (get? d k).isSome

/-- `d.keys()` -/
def keys (d : Dict K V) : List K := d.map Prod.fst

/-- dict built by successive assignments, e.g. a dict comprehension -/
def ofList (l : List (K × V)) : Dict K V := l.foldl (fun d kv => d.set kv.1 kv.2) []

end Dict

end Hadar
