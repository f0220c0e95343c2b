import Verif.Spec.Analyzer

/-!
# What queries of the analyzer are refused, and how (independent of the code)
-/

namespace Hadar.Spec

open Hadar

/-- C136: slices are for time and scenario -/
def SlicesFit (filters : List (IndexKind × IndexArg)) : Prop :=
  ∀ k a b c, (k, IndexArg.slice a b c) ∈ filters → k = .time ∨ k = .scn

/-- C136: no slice leaves its first bound out -/
def StartsGiven (filters : List (IndexKind × IndexArg)) : Prop :=
  ∀ k a b c, (k, IndexArg.slice a b c) ∈ filters → a.isSome

/-- C136: what a filter alone is refused for: a slice with a first bound but no last one, or of step zero -/
def argFault : IndexArg → Option PyErr
  | .slice start stop step =>
    if start.isSome ∧ stop = none then some .typeError
    else if step = some 0 then some .valueError
    else none
  | _ => none

/-- C136: a filter of this kind was already given; there is one kind of element by query -/
def Taken (used : List IndexKind) (k : IndexKind) : Prop :=
  k ∈ used ∨ k.isElement = true ∧ ∃ u ∈ used, u.isElement = true

/-- C136: the first call that cannot be made, after filters of the kinds `used`, and what it raises -/
inductive Stops : List IndexKind → List (IndexKind × IndexArg) → PyErr → Prop
  | again {used k arg rest} (h : Taken used k) : Stops used ((k, arg) :: rest) .attributeError
  | arg {used k arg rest e} (h : ¬ Taken used k) (he : argFault arg = some e) :
      Stops used ((k, arg) :: rest) e
  | later {used k arg rest e} (h : ¬ Taken used k) (he : argFault arg = none)
      (hs : Stops (used ++ [k]) rest e) : Stops used ((k, arg) :: rest) e

/-- C136: what a complete query is refused for: converters in a study without any; no network at all; one
value for each of the five filters, when there is such a row -/
inductive NoTable (s : Study) (r : Result) (g : IndexArg) (filters : List (IndexKind × IndexArg)) (kind : IndexKind) :
    PyErr → Prop
  | converters (hk : kind = .srcConv ∨ kind = .destConv) (h : s.converters = []) :
      NoTable s r g filters kind .keyError
  | network (hc : kind = .srcConv ∨ kind = .destConv → s.converters ≠ []) (h : g = .tuple []) :
      NoTable s r g filters kind .indexError
  | one (h : ∀ c ∈ (IndexKind.network, g) :: filters, Single c.2)
      (row : Row) (hr : row ∈ tableRows s r kind) (hm : Matches s ((.network, g) :: filters) row) :
      NoTable s r g filters kind .indexError

/-- C136: the exception of a query `analyzer.network(g).f(..)...`, if any -/
inductive Refused (s : Study) (r : Result) (g : IndexArg) (calls : List (IndexKind × IndexArg)) : PyErr → Prop
  | call {e} (h : Stops [.network] (calls.take 4) e) : Refused s r g calls e
  | table {kind e} (h : ∀ e, ¬ Stops [.network] (calls.take 4) e) (h4 : 4 ≤ calls.length)
      (hk : kind ∈ (calls.take 4).map Prod.fst) (hke : kind.isElement = true)
      (ht : NoTable s r g (calls.take 4) kind e) : Refused s r g calls e
  | beyond {kind} (h : ∀ e, ¬ Stops [.network] (calls.take 4) e) (h4 : 4 < calls.length)
      (hk : kind ∈ (calls.take 4).map Prod.fst) (hke : kind.isElement = true)
      (ht : ∀ e, ¬ NoTable s r g (calls.take 4) kind e) : Refused s r g calls .attributeError

end Hadar.Spec
