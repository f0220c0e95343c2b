import Verif.Model.Viewer

/-!
# Titles of charts (viewer/abc.py)

`%s` of a text is the text, `%d` and `%0d` of an integer its decimal digits after `-` if it is negative, `%0d` of
a float cuts it to an integer. Floats are rationals.
-/

namespace Hadar

namespace Viewer

/-- A chart asked for: the selector and the method called with its arguments. Titles do not depend on the
coordinates, the unit nor the zoom. -/
inductive Chart where
  | timeline (x : Item)
  | monotone (x : Item) (t scn : Option ℤ)
  | gaussian (x : Item) (t scn : Option ℤ)
  | candles (network node name : String) (scn : ℤ)
  | stack (network node : String) (scn : ℤ) (prodKind consKind : String)
  | racMatrix (network : String)
  | map (network : String) (t scn : ℤ)
  deriving DecidableEq, Repr

/-- titles of `timeline` (abc.py 152, 272, 478, 588, 706). Storages have no such method. -/
def Item.timelineTitle (x : Item) : Except PyErr String :=
  match x.kind with
  | .cons => .ok ("Consumptions " ++ x.col ++ " for " ++ x.name ++ " on node " ++ x.node)
  | .prod => .ok ("Production " ++ x.col ++ " for " ++ x.name ++ " on node " ++ x.node)
  | .link => .ok ("Link " ++ x.col ++ " from " ++ x.node ++ " to " ++ x.name)
  | .srcConv => .ok ("Timeline converter " ++ x.name ++ " from node " ++ x.node)
  | .destConv => .ok ("Timeline converter " ++ x.name ++ " to node " ++ x.node)
  | _ => .error .attributeError

/-- titles of `monotone` at a time step (abc.py 174, 294, 422, 500, 610, 728) -/
def Item.monotoneTime (x : Item) (t : ℤ) : Except PyErr String :=
  match x.kind with
  | .cons => .ok ("Monotone consumption of " ++ x.name ++ " on node " ++ x.node ++ " at t=" ++ toString t)
  | .prod => .ok ("Monotone production of " ++ x.name ++ " on node " ++ x.node ++ " at t=" ++ toString t)
  | .stor => .ok ("Monotone storage of " ++ x.name ++ " on node " ++ x.node ++ " at t=" ++ toString t)
  | .link => .ok ("Monotone link from " ++ x.node ++ " to " ++ x.name ++ " at t=" ++ toString t)
  | .srcConv => .ok ("Timeline converter " ++ x.name ++ " from node " ++ x.node ++ " at t=" ++ toString t)
  | .destConv => .ok ("Timeline converter " ++ x.name ++ " to node " ++ x.node ++ " at t=" ++ toString t)
  | _ => .error .attributeError

/-- titles of `monotone` in a scenario (abc.py 188, 308, 437, 510, 624, 742) -/
def Item.monotoneScn (x : Item) (scn : ℤ) : Except PyErr String :=
  match x.kind with
  | .cons => .ok ("Monotone consumption of " ++ x.name ++ " on node " ++ x.node ++ " at scn=" ++ toString scn)
  | .prod => .ok ("Monotone production of " ++ x.name ++ " on node " ++ x.node ++ " at scn=" ++ toString scn)
  | .stor => .ok ("Monotone storage of " ++ x.name ++ " on node " ++ x.node ++ " for scn=" ++ toString scn)
  | .link => .ok ("Monotone link from " ++ x.node ++ " to " ++ x.name ++ " at scn=" ++ toString scn)
  | .srcConv => .ok ("Timeline converter " ++ x.name ++ " from node " ++ x.node ++ " at scn=" ++ toString scn)
  | .destConv => .ok ("Timeline converter " ++ x.name ++ " to node " ++ x.node ++ " at scn=" ++ toString scn)
  | _ => .error .attributeError

/-- titles of `monotone`: with neither `t` nor `scn` the title is not bound -/
def Item.monotoneTitle (x : Item) (t scn : Option ℤ) : Except PyErr String := do
  notBoth t scn
  match t, scn with
  | some t, _ => x.monotoneTime t
  | none, some k => x.monotoneScn k
  | none, none => .error .nameError

/-- titles of `gaussian`, up to the time or scenario (abc.py 216, 231, 336, 351, 538, 553, 652, 667, 770, 785).
Storages have no such method. -/
def Item.gaussianAbout (x : Item) : Except PyErr String :=
  match x.kind with
  | .cons => .ok ("Gaussian consumption of " ++ x.name ++ " on node " ++ x.node ++ " at ")
  | .prod => .ok ("Gaussian production of " ++ x.name ++ " on node " ++ x.node ++ " at ")
  | .link => .ok ("Gaussian link from " ++ x.node ++ " to " ++ x.name ++ " at ")
  | .srcConv => .ok ("Gaussian converter " ++ x.name ++ " from node " ++ x.node ++ " at ")
  | .destConv => .ok ("Gaussian converter " ++ x.name ++ " to node " ++ x.node ++ " at ")
  | _ => .error .attributeError

/-- titles of `gaussian`: with neither `t` nor `scn`, `%0d` of `None` raises -/
def Item.gaussianTitle (x : Item) (t scn : Option ℤ) : Except PyErr String := do
  notBoth t scn
  let about ← x.gaussianAbout
  match t, scn with
  | none, some k => .ok (about ++ "scn=" ++ toString k)
  | none, none => .error .typeError
  | some t, _ => .ok (about ++ "t=" ++ toString t)

/-- `"RAC Matrix %0d %% passed" % pct` (abc.py 1027) -/
def racTitle (pct : ℚ) : String := "RAC Matrix " ++ toString pct.floor ++ " % passed"

/-- the title of a chart (also abc.py 395, 909, 1064); `rac_matrix` looks at the results -/
def Chart.title (a : Analyzer) : Chart → Except PyErr String
  | .timeline x => x.timelineTitle
  | .monotone x t scn => x.monotoneTitle t scn
  | .gaussian x t scn => x.gaussianTitle t scn
  | .candles _ node name scn =>
    .ok ("Stockage capacity of " ++ name ++ " on node " ++ node ++ " for scn=" ++ toString scn)
  | .stack _ node _ _ _ => .ok ("Stack for node " ++ node)
  | .racMatrix network => (Viewer.racMatrix a network).map fun p => racTitle p.1
  | .map _ t scn => .ok ("Exchange map at t=" ++ toString t ++ " scn=" ++ toString scn)

end Viewer

end Hadar
