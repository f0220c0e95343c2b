import Verif.Spec.Laws

/-!
# What can be told of a run of stages before it is made (independent of the code)

Only the names of columns, the labels of rows and the parameters of the stages are looked at.
-/

namespace Hadar.Spec

open Hadar

/-- the stages of the library with what they are made with -/
inductive Known where
  | clip (lower upper : Option ℚ)
  | rename (names : List (String × String))
  | drop (names : List String)
  | again (n : ℕ)
  | fault (p : FaultParams)

/-- the constructor that is called -/
def Known.make {σ : Type} (g : Rng σ) : Known → PyM (PipeWorld σ) ℕ
  | .clip l u => PipeWorld.newClip l u
  | .rename d => PipeWorld.newRename d
  | .drop n => PipeWorld.newDrop n
  | .again n => PipeWorld.newRepeat n
  | .fault p => PipeWorld.newFault g p

/-- names of columns and labels of rows -/
structure Outline where
  names : List String
  rows : List Cell
  deriving DecidableEq

/-- a frame whose columns come scenario by scenario, each with these names -/
def Drawn (o : Outline) (t : Timeline) : Prop :=
  t.index = o.rows ∧ o.names.Nodup ∧ ∃ parts : List (Cell × List (String × List Val)),
    parts ≠ [] ∧ (parts.map Prod.fst).Nodup ∧ (∀ p ∈ parts, p.2.map Prod.fst = o.names) ∧
    t.cols = parts.flatMap fun p => p.2.map fun c => ((p.1, c.1), c.2)

/-- the new name of a column -/
def newName (d : List (String × String)) (n : String) : String :=
  match d.find? fun p => p.1 = n with
  | some p => p.2
  | none => n

/-- the labels 0, 1, 2, ... -/
def counted (n : ℕ) : List Cell := (List.range n).map fun i : ℕ => Cell.num (i : ℚ)

/-- numpy takes these seeds; 0 and `None` are no seed -/
def SeedOk : Option ℤ → Prop
  | none => True
  | some z => z = 0 ∨ (0 ≤ z ∧ z < 2 ^ 32)

instance : ∀ s, Decidable (SeedOk s)
  | none => .isTrue trivial
  | some _ => by unfold SeedOk; infer_instance

/-- What a stage gives on a frame of this outline, `out` being the columns that its plug announces: an outline, an exception, or (`none`)
nothing that can be told. Nothing is told of frames where columns get the same name, and of faults that no duration is allowed for, which
raise if one occurs. -/
def foresee (k : Known) (out : List String) (o : Outline) : Option (Except PyErr Outline) :=
  match k with
  | .clip _ _ => some (.ok o)
  | .rename d =>
    if ∀ p ∈ d, p.1 ∈ o.names then
      if (o.names.map (newName d)).Nodup then some (.ok { o with names := o.names.map (newName d) }) else none
    else some (.error .valueError)
  | .drop l =>
    if ∀ n ∈ l, n ∈ o.names then some (.ok { o with names := o.names.filter fun n => n ∉ l }) else some (.error .valueError)
  | .again n => some (.ok ⟨if n = 0 then [] else o.names, counted o.rows.length⟩)
  | .fault p =>
    if "quantity" ∈ o.names ∧ out ≠ [] ∧ SeedOk p.seed ∧ 0 ≤ p.occurFreq ∧ p.occurFreq ≤ 1 then
      if out.Nodup ∧ (p.downtimeMin < p.downtimeMax ∨ o.rows = []) then
        if o.rows.Nodup then some (.ok ⟨out, counted o.rows.length⟩) else some (.error .valueError)
      else none
    else some (.error .valueError)

/-- one stage after the other -/
def foreseeAll : List (Known × List String) → Outline → Option (Except PyErr Outline)
  | [], o => some (.ok o)
  | (k, out) :: rest, o => match foresee k out o with
    | some (.ok o') => foreseeAll rest o'
    | x => x

/-- an outcome is as foreseen: a frame of the outline, or the exception -/
def AsForeseen (f : Option (Except PyErr Outline)) (x : Except PyErr Timeline) : Prop :=
  match f with
  | none => True
  | some (.ok o) => ∃ t, x = .ok t ∧ Drawn o t
  | some (.error e) => x = .error e

end Hadar.Spec
