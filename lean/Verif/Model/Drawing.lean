import Mathlib.Analysis.SpecialFunctions.Exp
import Verif.Model.Viewer

/-!
# What charts draw beyond the data (viewer/abc.py, viewer/html.py)

The curve of gaussian charts, the arrows of exchange maps and the time axis. Floats are real numbers here: roundings
are left out.
-/

namespace Hadar

namespace Viewer

/-! ### Gaussian charts -/

/-- `_gaussian` (html.py 108-109), `none` for NaN: with `o = 0`, `(x - m) / o` is NaN or infinite, so that
`np.exp` gives NaN or 0, which divided by 0 is NaN -/
noncomputable def bell (m o x : ℝ) : Option ℝ :=
  if o = 0 then none else some (Real.exp (-0.5 * ((x - m) / o) ^ 2) / o / 1.772454)

/-- `np.mean` of values that are not empty -/
noncomputable def npMean (l : List ℝ) : ℝ := l.sum / l.length

/-- `np.std`: square root of the mean of the squared deviations -/
noncomputable def npStd (l : List ℝ) : ℝ := √(npMean (l.map fun x => |x - npMean l| ^ 2))

/-- `np.linspace(start, stop, n)` for `n ≥ 2` -/
noncomputable def linspace (start stop : ℝ) (n : ℕ) : List ℝ :=
  (List.range n).map fun i : ℕ => start + i * ((stop - start) / (n - 1))

/-- what is drawn by `gaussian`: the grey curve, the green points, the red points -/
structure GaussianDrawing where
  curve : List (ℝ × Option ℝ)
  green : List (ℝ × Option ℝ)
  red : List (ℝ × Option ℝ)

/-- `gaussian` (html.py 104-156) -/
noncomputable def gaussianDrawing (rac qt : List ℚ) : Except PyErr GaussianDrawing := do
  let lo ← pyMin qt
  let hi ← pyMax qt
  let x := linspace (((lo * 0 : ℚ)) : ℝ) ((hi : ℝ) * 1.2) 100
  let m := npMean (qt.map fun q : ℚ => (q : ℝ))
  let o := npStd (qt.map fun q : ℚ => (q : ℝ))
  let c ← gaussianChart rac qt
  let draw := fun x : ℝ => (x, bell m o x)
  pure ⟨x.map draw, c.1.map fun q : ℚ => draw q, c.2.map fun q : ℚ => draw q⟩

/-! ### Exchange maps -/

/-- what `_plot_links` draws (html.py 308-357): a segment, then the outline of a triangle (its tip and its two other
corners) with a text; `shade` is the place in the colour map, `nan` and `inf` as numpy gives them -/
structure Arrow where
  start : ℚ × ℚ
  stop : ℚ × ℚ
  tip : ℚ × ℚ
  left : ℚ × ℚ
  right : ℚ × ℚ
  text : ℚ
  shade : Cell
  deriving DecidableEq, Repr

/-- `abs(qt) / 2 / limit + 0.5` (html.py 275), where `qt` is a number of numpy -/
def shadeOf (qt limit : ℚ) : Cell :=
  if limit = 0 then if qt = 0 then .nan else .inf false
  else .num (|qt| / 2 / limit + 1 / 2)

/-- `_plot_links` (html.py 308-357) -/
def arrowOf (S E : ℚ × ℚ) (qt limit : ℚ) : Arrow :=
  let v := E - S
  let w : ℚ × ℚ := (v.2, -v.1)
  let A := E - (v.1 * (1 / 10), v.2 * (1 / 10))
  let B := A - (v.1 / 10, v.2 / 10) - (w.1 / 10, w.2 / 10)
  let C := A - (v.1 / 10, v.2 / 10) + (w.1 / 10, w.2 / 10)
  ⟨S, E, A, B, C, qt, shadeOf qt limit⟩

/-- what `map_exchange` draws (html.py 260-306): arrows, places and values of nodes, centre and zoom -/
structure MapDrawing where
  arrows : List Arrow
  nodes : List ((ℚ × ℚ) × ℚ)
  center : ℚ × ℚ
  zoom : ℚ
  deriving DecidableEq, Repr

/-- the place of a node -/
def place (coord : Dict String (ℚ × ℚ)) (c : Cell) : ℚ × ℚ :=
  match c with
  | .str n => (Dict.get? coord n).getD (0, 0)
  | _ => (0, 0)

/-- `map_exchange` (html.py 260-306), after the checks of `mapChart`: `1 / size` raises for a size of 0 -/
def drawMap (coord : Dict String (ℚ × ℚ)) (size : ℚ) (c : MapChart) : Except PyErr MapDrawing :=
  let places := c.nodes.map fun p => place coord (.str p.1)
  let center : ℚ × ℚ := ((places.map Prod.fst).sum / places.length, (places.map Prod.snd).sum / places.length)
  if size = 0 then .error .zeroDivisionError
  else pure ⟨c.arrows.map fun p => arrowOf (place coord p.1.1) (place coord p.1.2) p.2 c.limit,
    places.zip (c.nodes.map Prod.snd), center, 1 / size / (7 / 100)⟩

/-- `map_exchange` (html.py 260-306) -/
def mapDrawing (coord : Option (Dict String (ℚ × ℚ))) (size : ℚ) (nodes : Dict String ℚ)
    (arrows : Dict (Cell × Cell) ℚ) (limit : ℚ) : Except PyErr MapDrawing := do
  let c ← mapChart coord nodes arrows limit
  drawMap (coord.getD []) size c

/-! ### Time axis -/

/-- `ABCPlotting.__init__` (abc.py 1104-1114): the abscissas of charts over time. Dates are numbers. Simplification:
`pd.date_range` with a number of periods gives evenly spaced dates; it rounds them to nanoseconds, which is left
out. -/
def timeIndex (start stop : Option ℚ) (horizon : ℕ) : Except PyErr (List ℚ) :=
  match start, stop with
  | some a, some b => .ok ((List.range horizon).map fun i : ℕ => a + i * ((b - a) / ((horizon : ℚ) - 1)))
  | none, none => .ok ((List.range horizon).map fun i : ℕ => (i : ℚ))
  | _, _ => .error .valueError

end Viewer

end Hadar
