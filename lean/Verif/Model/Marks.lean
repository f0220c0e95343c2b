import Verif.Model.Drawing

/-!
# Bars of storage charts, colours of exchange maps (viewer/html.py)

`%d` of a float cuts it to an integer. Floats are rationals. What plotly makes of the numbers it gets is not modelled.
-/

namespace Hadar

namespace Viewer

/-- the integer that `%d` writes -/
def cut (q : ℚ) : ℤ := if 0 ≤ q then q.floor else -((-q).floor)

/-- a bar given to `go.Ohlc`: its place on the time axis, its four numbers and its text -/
structure Bar where
  at' : ℚ
  opens : ℚ
  high : ℚ
  low : ℚ
  close : ℚ
  text : String
  deriving DecidableEq, Repr

/-- a bar of `candles` (html.py 160-173): `high` is `open` and `low` is `close` -/
def barOf (label : ℚ → String) (t o c : ℚ) : Bar :=
  ⟨t, o, o, c, c, label t ++ "<br>Begin=" ++ toString (cut o) ++ "<br>End=" ++ toString (cut c) ++ "<br>Flow=" ++
    toString (cut (c - o))⟩

/-- `candles` (html.py 158-184); `label` is `%s` on the items of the time index. Simplification: the bars stop with the
shortest of the three lists, which plotly does too. -/
def candlesChart (label : ℚ → String) (times opens closes : List ℚ) : List Bar :=
  (times.zip (opens.zip closes)).map fun p => barOf label p.1 p.2.1 p.2.2

/-- `StorageFluentAPISelector.candles` (abc.py 377-400) up to the bars, on a time axis (abc.py 1104-1114) -/
def candlesDrawn (label : ℚ → String) (start stop : Option ℚ) (a : Analyzer) (network node name : String) (scn : ℤ) :
    Except PyErr (List Bar) := do
  let times ← timeIndex start stop a.study.horizon
  let p ← candles a network node name scn
  pure (candlesChart label times p.1 p.2)

/-- a colour written `rgb(r, g, b)` -/
structure Rgb where
  red : ℚ
  green : ℚ
  blue : ℚ
  deriving DecidableEq, Repr

/-- a colour map of matplotlib: the red, green and blue of a place, NaN and infinities included. The fourth number
(opacity), which the code drops, is left out. -/
abbrev ColorMap : Type := Cell → Rgb

/-- `"rgb" + str(self.cmap(...)[:-1])` (html.py 275): the numbers of the colour map are written as they are -/
def arrowColor (cmap : ColorMap) (x : Arrow) : Rgb := cmap x.shade

/-- `(np.array(cmap(k * h)[:3]) * 255).astype(np.uint8)` (html.py 57): numbers are cut -/
def byteColor (c : Rgb) : Rgb := ⟨(cut (c.red * 255) : ℤ), (cut (c.green * 255) : ℤ), (cut (c.blue * 255) : ℤ)⟩

/-- `matplotlib_to_plotly` (html.py 45-59): places and colours of the scale used for nodes; `1.0 / (res - 1)` raises
for `res = 1` -/
def colorScale (cmap : ColorMap) (res : ℕ) : Except PyErr (List (ℚ × Rgb)) :=
  if res = 1 then .error .zeroDivisionError
  else .ok ((List.range res).map fun k : ℕ =>
    let x : ℚ := k * (1 / ((res : ℚ) - 1))
    (x, byteColor (cmap (.num x))))

end Viewer

end Hadar
