import Verif.Model.Marks

/-!
# Names and colours of bands, lines and curves (viewer/html.py)

A trace given to plotly is modelled by its name, its ordinates, the part it fills and the colour of its line. Widths,
hover options and the colours that plotly picks by itself for bands are left out.
-/

namespace Hadar

namespace Viewer

/-- a trace given to `go.Scatter`: bands have `fill`, lines have `line_color`; `opacity` is the last number of
`rgba(0, 0, 0, ...)`, before it is written with two digits -/
structure Trace where
  name : Cell
  ys : List ℚ
  fill : Option String
  color : Option String
  opacity : Option ℚ
  deriving DecidableEq, Repr

/-- `self.cmap_cons` (html.py 32-43) -/
def lineColors : List String :=
  ["brown", "blue", "darkgoldenrod", "darkmagenta", "darkorange", "cadetblue", "forestgreen", "indigo", "olive",
    "darkred"]

/-- a band (html.py 198-206) -/
def bandTrace (p : (Cell × List ℚ) × ℕ) : Trace :=
  ⟨p.1.1, p.1.2, some (if p.2 = 0 then "tozeroy" else "tonexty"), none, none⟩

/-- a line (html.py 216-225): `self.cmap_cons[i % 10]` -/
def lineTrace (p : (Cell × List ℚ) × ℕ) : Trace :=
  ⟨p.1.1, p.1.2, none, lineColors[p.2 % 10]?, none⟩

/-- traces of `stack` (html.py 186-230), in the order they are added: `stackChart` gives the ordinates -/
def stackTraces (c : StackChart) : List Trace := c.areas.zipIdx.map bandTrace ++ c.lines.zipIdx.map lineTrace

/-- `NodeFluentAPISelector.stack` (abc.py 806-907) up to the traces -/
def stackDrawn (a : Analyzer) (srt : SortValues) (network node : String) (scn : ℤ) (prodKind consKind : String) :
    Except PyErr (List Trace) := do
  let c ← stack a srt network node scn prodKind consKind
  pure (stackTraces c)

/-- `"scn %0d" % scn` (html.py 74): texts and NaN raise. Simplification: so do infinities, as NaN does (`OverflowError`
in Python). -/
def scnName : Cell → Except PyErr String
  | .num q => .ok ("scn " ++ toString (cut q))
  | .str _ => .error .typeError
  | _ => .error .valueError

/-- a curve of `timeline` (html.py 67-77) -/
def curveTrace (alpha : ℚ) (p : Cell × List ℚ) : Except PyErr Trace := do
  let name ← scnName p.1
  pure ⟨.str name, p.2, none, none, some alpha⟩

/-- traces of `timeline` (html.py 61-86): `1 / scenarios.size` raises without scenarios -/
def timelineTraces (curves : List (Cell × List ℚ)) : Except PyErr (List Trace) :=
  if curves.length = 0 then .error .zeroDivisionError
  else curves.mapM (curveTrace (max (1 / 100) (1 / (curves.length : ℚ))))

/-- `timeline` of an element (abc.py 140-153 and alike) up to the traces -/
def Item.timelineDrawn (a : Analyzer) (x : Item) : Except PyErr (List Trace) := do
  let c ← x.timeline a
  timelineTraces c

end Viewer

end Hadar
