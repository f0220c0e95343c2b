import Verif.Model.Titles

/-!
# What titles tell (C105)
-/

namespace Hadar.Spec

open Viewer

/-- the sorts of charts -/
inductive Sort' where
  | timeline | monotone | gaussian | candles | stack | matrix | map
  deriving DecidableEq, Repr

/-- what a title tells: the sort of chart, the element, its node, the column, the time step, the scenario -/
structure Told where
  sort : Sort'
  element : Option (IndexKind × String) := none
  node : Option String := none
  column : Option String := none
  t : Option ℤ := none
  scn : Option ℤ := none
  deriving DecidableEq, Repr

/-- the column told by the timelines: converters have one only -/
def toldColumn (x : Item) : Option String :=
  if x.kind = .srcConv ∨ x.kind = .destConv then none else some x.col

/-- what the title of a chart tells. Not the network; the column on timelines only; not the scenario nor the
columns of stacks. -/
def told : Chart → Told
  | .timeline x => { sort := .timeline, element := some (x.kind, x.name), node := some x.node, column := toldColumn x }
  | .monotone x t scn => { sort := .monotone, element := some (x.kind, x.name), node := some x.node, t, scn }
  | .gaussian x t scn => { sort := .gaussian, element := some (x.kind, x.name), node := some x.node, t, scn }
  | .candles _ node name scn => { sort := .candles, element := some (.stor, name), node := some node, scn := some scn }
  | .stack _ node _ _ _ => { sort := .stack, node := some node }
  | .racMatrix _ => { sort := .matrix }
  | .map _ t scn => { sort := .map, t := some t, scn := some scn }

/-- no blank in a text -/
def OneWord (s : String) : Prop := ' ' ∉ s.toList

/-- no blank in the names of a chart -/
def PlainNames : Chart → Prop
  | .timeline x | .monotone x _ _ | .gaussian x _ _ => OneWord x.name ∧ OneWord x.node ∧ OneWord x.col
  | .candles _ node name _ => OneWord name ∧ OneWord node
  | .stack _ node _ _ _ => OneWord node
  | _ => True

end Hadar.Spec
