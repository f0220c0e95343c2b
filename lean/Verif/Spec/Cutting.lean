import Verif.Spec.Analyzer

/-!
# Specification of C139: questions on parts and on the whole
-/

namespace Hadar.Spec

open Hadar

/-- what the lines of a table have in some columns, be they levels or values -/
def shows (pt : Pivot) (cols : List String) : List (List Cell) :=
  pt.lines.map fun l => cols.map (Row.at (pt.levels.zip l.1 ++ l.2))

/-- the sum of a column; what is not a number counts for nothing -/
def columnTotal (pt : Pivot) (col : String) : ℚ :=
  ((shows pt [col]).map fun l => match l with
    | [.num q] => q
    | _ => 0).sum

/-- the column is in the table: it is a level, or it is not the column of a filter -/
def InTable (filters : List (IndexKind × IndexArg)) (pt : Pivot) (c : String) : Prop :=
  c ∈ pt.levels ∨ c ∉ filters.map fun f => f.1.column

/-- the study can have this value there: positions are times and scenarios of the study -/
def HasPlace (s : Study) : IndexKind → Cell → Prop
  | .time, c => ∃ t < s.horizon, c = .num t
  | .scn, c => ∃ k < s.nbScn, c = .num k
  | _, _ => True

/-- C139: the first question is cut in two by one of its filters: each value it selects is selected by one of the two others, not by both -/
inductive CutInTwo (s : Study) : List (IndexKind × IndexArg) → List (IndexKind × IndexArg) → List (IndexKind × IndexArg) → Prop
  | here (k : IndexKind) (x y z : IndexArg) (rest : List (IndexKind × IndexArg))
      (all : ∀ c, HasPlace s k c → (Selects (extent s k) x c ↔ Selects (extent s k) y c ∨ Selects (extent s k) z c))
      (once : ∀ c, HasPlace s k c → ¬ (Selects (extent s k) y c ∧ Selects (extent s k) z c)) :
      CutInTwo s ((k, x) :: rest) ((k, y) :: rest) ((k, z) :: rest)
  | there (f : IndexKind × IndexArg) {fs fs' fs'' : List (IndexKind × IndexArg)} (h : CutInTwo s fs fs' fs'') :
      CutInTwo s (f :: fs) (f :: fs') (f :: fs'')

/-- C139: the first question asks for less than the second one, filter by filter -/
def AsksLess (s : Study) : List (IndexKind × IndexArg) → List (IndexKind × IndexArg) → Prop :=
  List.Forall₂ fun f f' => f.1 = f'.1 ∧ ∀ c, HasPlace s f.1 c → Selects (extent s f.1) f.2 c → Selects (extent s f.1) f'.2 c

end Hadar.Spec
