import Verif.Model.Legend
import Verif.Spec.Viewer

/-!
# What tells bands, lines and curves apart (independent of the code)
-/

namespace Hadar.Spec

open Hadar

/-- C115: names of what brings energy to a node, imports left out -/
def bandNames (s : Study) (g d : String) (n : InputNode) : List String :=
  n.productions.map (·.name) ++ n.storages.map (·.name) ++
    (s.converters.filter fun p => decide (p.2.destNetwork = g ∧ p.2.destNode = d)).map Prod.fst

/-- C115: names of what takes energy from a node, exports left out -/
def lineNames (s : Study) (g d : String) (n : InputNode) : List String :=
  n.consumptions.map (·.name) ++ n.storages.map (·.name) ++
    (s.converters.filter fun p => decide ([g, d] ∈ p.2.srcRatios.map Prod.fst)).map Prod.fst

/-- C115: bands are filled, lines are not -/
def isBand (x : Viewer.Trace) : Bool := x.fill.isSome

/-- C115: traces whose bands carry the names `bands`, plus `import` if and only if `im`, and whose lines carry the names
`lines`, plus `export` if and only if `ex`. Bands come first; the first one goes down to zero and the others to the
one before. Lines have colours, which are the same every ten lines and only then. -/
structure LegendOf (bands lines : List String) (im ex : Prop) (traces : List Viewer.Trace) : Prop where
  bandNames : (im → ((traces.filter isBand).map (·.name)).Perm ((bands ++ ["import"]).map Cell.str)) ∧
    (¬ im → ((traces.filter isBand).map (·.name)).Perm (bands.map Cell.str))
  lineNames : (ex → ((traces.filter (!isBand ·)).map (·.name)).Perm ((lines ++ ["export"]).map Cell.str)) ∧
    (¬ ex → ((traces.filter (!isBand ·)).map (·.name)).Perm (lines.map Cell.str))
  order : traces = traces.filter isBand ++ traces.filter (!isBand ·)
  ground : ∀ (i : ℕ) (x : Viewer.Trace), (traces.filter isBand)[i]? = some x →
    x.fill = some (if i = 0 then "tozeroy" else "tonexty")
  painted : ∀ x ∈ traces.filter (!isBand ·), x.color.isSome = true
  colours : ∀ (i j : ℕ) (x y : Viewer.Trace), (traces.filter (!isBand ·))[i]? = some x →
    (traces.filter (!isBand ·))[j]? = some y → (x.color = y.color ↔ i % 10 = j % 10)

end Hadar.Spec
