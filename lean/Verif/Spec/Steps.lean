import Verif.Spec.Laws

/-!
# Time step by time step (independent of the code)
-/

namespace Hadar.Spec

variable {σ : Type}

/-- what a list has at given positions, in the order of the positions; positions after the end give nothing -/
def atPlaces {α : Type} (J : List ℕ) (l : List α) : List α := J.filterMap (l[·]?)

/-- a frame with other rows -/
def _root_.Hadar.Timeline.withRows (onLabels : List Cell → List Cell) (onValues : List Val → List Val) (t : Timeline) : Timeline :=
  ⟨onLabels t.index, t.cols.map fun c => (c.1, onValues c.2)⟩

/-- a frame of the user with other rows -/
def _root_.Hadar.Data.withRows (onLabels : List Cell → List Cell) (onValues : List Val → List Val) : Data → Data
  | .plain f => .plain ⟨onLabels f.index, f.cols.map fun c => (c.1, onValues c.2)⟩
  | .multi t => .multi (t.withRows onLabels onValues)

/-- only the rows at some places -/
def _root_.Hadar.Timeline.rowsAt (J : List ℕ) (t : Timeline) : Timeline := t.withRows (atPlaces J) (atPlaces J)

def _root_.Hadar.Data.rowsAt (J : List ℕ) (d : Data) : Data := d.withRows (atPlaces J) (atPlaces J)

/-- only the first `m` rows -/
def _root_.Hadar.Data.firstRows (m : ℕ) (d : Data) : Data := d.withRows (List.take m) (List.take m)

/-- all but the first `m` rows -/
def _root_.Hadar.Data.otherRows (m : ℕ) (d : Data) : Data := d.withRows (List.drop m) (List.drop m)

/-- `s` is a `Clip`, `Rename` (or `ToShuffler`) or `Drop` stage -/
inductive LabelStage (w : PipeWorld σ) (s : ℕ) : Prop where
  | clip {l u : Option ℚ} (h : MadeBy (PipeWorld.newClip l u) w s)
  | rename {names : Dict String String} (h : MadeBy (PipeWorld.newRename names) w s)
  | drop {names : List String} (h : MadeBy (PipeWorld.newDrop names) w s)

/-- `s` is a `Clip`, `Rename` (or `ToShuffler`), `Drop` or `RepeatScenario` stage -/
inductive StepStage (w : PipeWorld σ) (s : ℕ) : Prop where
  | keeps (h : LabelStage w s)
  | repeats {n : ℕ} (h : MadeBy (PipeWorld.newRepeat n) w s)

/-- Two outcomes: the same exception, or frames of which the second has the columns and as many rows as the first
with only the rows at `J` -/
inductive SameRowsAt (J : List ℕ) : Except PyErr Timeline → Except PyErr Timeline → Prop where
  | ok {t t' : Timeline} (cols : t'.cols = (t.rowsAt J).cols) (rows : t'.index.length = (t.rowsAt J).index.length) :
      SameRowsAt J (.ok t) (.ok t')
  | error (e : PyErr) : SameRowsAt J (.error e) (.error e)

/-- Three outcomes: the same exception, or three frames with the same columns, where the first has in each column,
and in number of rows, the second followed by the third -/
inductive FollowedBy : Except PyErr Timeline → Except PyErr Timeline → Except PyErr Timeline → Prop where
  | ok {t a b : Timeline} (first : a.cols.map (·.1) = t.cols.map (·.1)) (other : b.cols.map (·.1) = t.cols.map (·.1))
      (values : t.cols.map (·.2) = List.zipWith (· ++ ·) (a.cols.map (·.2)) (b.cols.map (·.2)))
      (rows : t.index.length = a.index.length + b.index.length) : FollowedBy (.ok t) (.ok a) (.ok b)
  | error (e : PyErr) : FollowedBy (.error e) (.error e) (.error e)

end Hadar.Spec
