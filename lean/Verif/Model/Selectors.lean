import Verif.Model.Analyzer

/-!
# Partial queries as objects (`NetworkFluentAPISelector`, result.py 753-808)

`Selector.call` of `Model/Analyzer.lean` follows one chain of calls. Here selectors are objects kept by the
user, who may call them again; each has a list of indexes, held by reference.
-/

namespace Hadar

/-- all lists of indexes, and all selectors: reference of its list, and indexes when it was created (they
decide what methods it has, result.py 770-792) -/
structure Selectors where
  lists : List (List Index)
  sels : List (ℕ × List Index)
  deriving DecidableEq, Repr

/-- what a user may do -/
inductive SelOp where
  | network (arg : IndexArg)
  | call (i : ℕ) (k : IndexKind) (arg : IndexArg)
  deriving DecidableEq, Repr

/-- what the user gets: a new selector (its number), or a table -/
inductive SelReply where
  | ref (i : ℕ)
  | table (t : Option Pivot)
  deriving DecidableEq, Repr

namespace Selectors

def start : Selectors := ⟨[], []⟩

/-- `NetworkFluentAPISelector(indexes, analyzer)` with a new list (result.py 766-768) -/
def create (st : Selectors) (indexes : List Index) : Except PyErr SelReply × Selectors :=
  (.ok (.ref st.sels.length), ⟨st.lists ++ [indexes], st.sels ++ [(st.lists.length, indexes)]⟩)

/-- `analyzer.network(..)` (result.py 541-547), or a call on a selector: `_append` (797-808) extends the
list of the selector in place, then runs the query or makes a selector with a deep copy of the list -/
def step (a : Analyzer) (st : Selectors) : SelOp → Except PyErr SelReply × Selectors
  | .network arg =>
    match Index.make .network arg with
    | .error e => (.error e, st)
    | .ok x => st.create [x]
  | .call i k arg =>
    match st.sels[i]? with
    | none => (.error .keyError, st)
    | some (l, initial) =>
      if Selector.offers ⟨initial, initial⟩ k then
        match Index.make k arg with
        | .error e => (.error e, st)
        | .ok x =>
          let indexes := st.lists.getD l [] ++ [x]
          let st' := { st with lists := st.lists.set l indexes }
          if indexes.length = fullDescription then ((a.filter indexes).map .table, st')
          else st'.create indexes
      else (.error .attributeError, st)

end Selectors

end Hadar
