import Verif.Spec.Analyzer

/-!
# Same answers, arranged in another way
-/

namespace Hadar.Spec

open Hadar

/-- a line of a table: what it has in the columns of the filters, then its values -/
abbrev Line : Type := (String → Cell) × Dict String Cell

/-- the table shows these lines, each once: its levels are the last columns of the filters, in the order of the filters, and its lines are
sorted by them; the columns left out have the same content in all lines -/
structure Presents (filters : List (IndexKind × IndexArg)) (lines : List Line) (pt : Pivot) : Prop where
  content : pt.lines.Perm (lines.map fun l => (pt.levels.map l.1, l.2))
  distinct : (lines.map fun l => pt.levels.map l.1).Nodup
  levels : pt.levels <:+ filters.map fun f => f.1.column
  sorted : pt.lines.Pairwise fun a b => Cell.keyLe a.1 b.1 = true
  left : ∀ f ∈ filters, f.1.column ∉ pt.levels → ∃ c, ∀ l ∈ lines, l.1 f.1.column = c
  given : ∀ k c, (k, IndexArg.one c) ∈ filters → ∀ l ∈ lines, l.1 k.column = c

/-- C111: two queries with the same filters in another order both raise, are both incomplete, or show the same lines -/
inductive SameOutcome (filters filters' : List (IndexKind × IndexArg)) : Except PyErr Reply → Except PyErr Reply → Prop
  | error (e e' : PyErr) : SameOutcome filters filters' (.error e) (.error e')
  | selector (q q' : Selector) (h : q.indexes.Perm q'.indexes) : SameOutcome filters filters' (.ok (.selector q)) (.ok (.selector q'))
  | table (lines : List Line) (pt pt' : Pivot) (h : Presents filters lines pt) (h' : Presents filters' lines pt') :
      SameOutcome filters filters' (.ok (.table (some pt))) (.ok (.table (some pt')))

/-- C111: filters that give the same values in another order -/
inductive SameValues : IndexArg → IndexArg → Prop
  | same (arg : IndexArg) : SameValues arg arg
  | lists (l l' : List Cell) (h : l.Perm l') : SameValues (.list l) (.list l')
  | tuples (l l' : List Cell) (h : l.Perm l') : SameValues (.tuple l) (.tuple l')

/-- C111: the same table, or the same error, or both incomplete -/
inductive SameTable : Except PyErr Reply → Except PyErr Reply → Prop
  | error (e : PyErr) : SameTable (.error e) (.error e)
  | selector (q q' : Selector) : SameTable (.ok (.selector q)) (.ok (.selector q'))
  | table (t : Option Pivot) : SameTable (.ok (.table t)) (.ok (.table t))

end Hadar.Spec
