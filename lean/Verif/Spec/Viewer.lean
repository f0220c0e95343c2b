import Verif.Model.Viewer
import Verif.Spec.Analyzer

/-!
# What charts should show (independent of the code)
-/

namespace Hadar.Spec

open Hadar

/-- C62: the points of a monotone chart: the given values from highest to lowest, spread from 0 % to 100 % -/
structure MonotoneOf (values : List ℚ) (points : List (ℚ × ℚ)) : Prop where
  perm : (points.map Prod.snd).Perm values
  sorted : (points.map Prod.snd).Pairwise fun a b => b ≤ a
  places : ∀ (i : ℕ) (p : ℚ × ℚ), points[i]? = some p → p.1 = if values.length ≤ 1 then 0 else
    100 * (i : ℚ) / ((values.length : ℚ) - 1)

/-- C67: the values with a non-negative margin are green, the others are red, in order -/
def GaussianOf {ι : Type} (at_ : List ι) (value margin : ι → ℚ) (chart : List ℚ × List ℚ) : Prop :=
  chart.1 = (at_.filter fun i => decide (0 ≤ margin i)).map value ∧
  chart.2 = (at_.filter fun i => decide (margin i < 0)).map value

/-- C64: the quantity that the charts of an element show, for each scenario and time: what is given to or asked
by a consumption, used or available of a production or link, what a converter gives to its destination or takes
from a source (see `storageFlow` for storages) -/
inductive Shows (s : Study) (r : Result) : Viewer.Item → (ℕ → ℕ → ℚ) → Prop
  | given {g d : String} {n : InputNode} {i : ℕ} {c : Consumption} (hn : HasNode s g d n) (hc : n.consumptions[i]? = some c) :
      Shows s r ⟨g, d, .cons, c.name, "given"⟩ fun k t =>
        cellAt (outNode r g d).consumptions i (·.quantity) k t
  | asked {g d : String} {n : InputNode} {i : ℕ} {c : Consumption} (hn : HasNode s g d n) (hc : n.consumptions[i]? = some c) :
      Shows s r ⟨g, d, .cons, c.name, "asked"⟩ fun k t => val c.quantity k t
  | used {g d : String} {n : InputNode} {i : ℕ} {c : Production} (hn : HasNode s g d n) (hc : n.productions[i]? = some c) :
      Shows s r ⟨g, d, .prod, c.name, "used"⟩ fun k t => (dispatchOf s r k).prod g d i t
  | avail {g d : String} {n : InputNode} {i : ℕ} {c : Production} (hn : HasNode s g d n) (hc : n.productions[i]? = some c) :
      Shows s r ⟨g, d, .prod, c.name, "avail"⟩ fun k t => val c.quantity k t
  | usedLink {g d : String} {n : InputNode} {i : ℕ} {c : Link} (hn : HasNode s g d n) (hc : n.links[i]? = some c) :
      Shows s r ⟨g, d, .link, c.dest, "used"⟩ fun k t => (dispatchOf s r k).link g d i t
  | availLink {g d : String} {n : InputNode} {i : ℕ} {c : Link} (hn : HasNode s g d n) (hc : n.links[i]? = some c) :
      Shows s r ⟨g, d, .link, c.dest, "avail"⟩ fun k t => val c.quantity k t
  | arrival {p : String × Converter} (hp : p ∈ s.converters) :
      Shows s r ⟨p.2.destNetwork, p.2.destNode, .destConv, p.1, "flow"⟩ fun k t =>
        (dispatchOf s r k).convDest p.1 t
  | departure {p : String × Converter} {g d : String} {q : NumVal} (hp : p ∈ s.converters) (hq : ([g, d], q) ∈ p.2.srcRatios) :
      Shows s r ⟨g, d, .srcConv, p.1, "flow"⟩ fun k t => (dispatchOf s r k).convSrc p.1 (g, d) t

/-- C68: the numbers that the table of results has for each kind of element -/
def numberColumns : IndexKind → List String
  | .cons => ["cost", "asked", "given"]
  | .prod => ["cost", "avail", "used"]
  | .link => ["cost", "avail", "used"]
  | .destConv => ["flow", "cost", "max"]
  | .srcConv => ["ratio", "flow", "max"]
  | _ => []

/-- C64: storages show what flows in less what flows out -/
def storageFlow (s : Study) (r : Result) (g d : String) (i k t : ℕ) : ℚ :=
  (dispatchOf s r k).fin g d i t - (dispatchOf s r k).fout g d i t

/-- C63: margin of a network: production that is available and not used, less consumption that is not served -/
def margin (s : Study) (r : Result) (net : InputNetwork) (g : String) (k t : ℕ) : ℚ :=
  (sumL net.nodes fun q => sumI q.2.productions fun x i =>
    val x.quantity k t - (dispatchOf s r k).prod g q.1 i t) -
  sumL net.nodes fun q => sumI q.2.consumptions fun _ i => (dispatchOf s r k).lol g q.1 i t

/-- C63: colours of the cells of a matrix: same sign, within [-1, 1], in proportion to the value among cells of
the same sign, with 1 for the highest and -1 for the lowest -/
structure ColoursOf (values colours : List ℚ) : Prop where
  length : colours.length = values.length
  range : ∀ c ∈ colours, -1 ≤ c ∧ c ≤ 1
  sign : ∀ (i : ℕ) (v c : ℚ), values[i]? = some v → colours[i]? = some c → (0 < v ↔ 0 < c) ∧ (v < 0 ↔ c < 0)
  order : ∀ (i j : ℕ) (v w c d : ℚ), values[i]? = some v → colours[i]? = some c → values[j]? = some w →
    colours[j]? = some d → v < w → c < d
  top : ∀ (i : ℕ) (v c : ℚ), values[i]? = some v → colours[i]? = some c → 0 < v → (∀ w ∈ values, w ≤ v) → c = 1
  bottom : ∀ (i : ℕ) (v c : ℚ), values[i]? = some v → colours[i]? = some c → v < 0 → (∀ w ∈ values, v ≤ w) → c = -1

/-- C59: candles of a storage: each opens where the one before closed, the first at the initial capacity, and each
closes at the level at the end of its time step -/
structure CandlesOf (h : ℕ) (init : ℚ) (level : ℕ → ℚ) (opens closes : List ℚ) : Prop where
  numOpens : opens.length = h
  numCloses : closes.length = h
  first : 0 < h → opens[0]? = some init
  next : ∀ t, t + 1 < h → opens[t + 1]? = closes[t]?
  close : ∀ t < h, closes[t]? = some (level t)

/-- C60: entries piled up: each boundary is the sum of the entries up to it -/
def Piled (h : ℕ) (entries drawn : List (Cell × List ℚ)) : Prop :=
  drawn.map Prod.fst = entries.map Prod.fst ∧ (∀ p ∈ drawn, p.2.length = h) ∧
  ∀ (i : ℕ) (p : Cell × List ℚ), drawn[i]? = some p → ∀ t < h, p.2.getD t 0 = sumL (entries.take (i + 1)) fun e => e.2.getD t 0

/-- C60: top of the areas at time `t` -/
def areasTop (c : Viewer.StackChart) (t : ℕ) : ℚ :=
  match c.areas.getLast? with
  | some p => p.2.getD t 0
  | none => 0

/-- C60: top of the lines at time `t`: the top line is drawn first -/
def linesTop (c : Viewer.StackChart) (t : ℕ) : ℚ :=
  match c.lines.head? with
  | some p => p.2.getD t 0
  | none => 0

/-- values of a series over the horizon -/
def over (s : Study) (f : ℕ → ℚ) : List ℚ := (List.range s.horizon).map f

/-- `sort_values(..., ascending=False)`: some order with the highest first -/
def Descending (srt : Viewer.SortValues) : Prop :=
  ∀ f l, (srt f l).Perm l ∧ (srt f l).Pairwise fun a b => f b ≤ f a

/-- C60: one band per element, with its name and its values over time, in any order -/
def BandsOf (s : Study) (elements : List (String × (ℕ → ℚ))) (bands : List (Cell × List ℚ)) : Prop :=
  bands.Perm (elements.map fun e => (Cell.str e.1, over s e.2))

/-- C69: one band per element (name, cost, values over time), from the element with the highest peak of cost to the
one with the lowest -/
def RankedOf (s : Study) (elements : List (String × (ℕ → ℚ) × (ℕ → ℚ))) (bands : List (Cell × List ℚ)) : Prop :=
  ∃ order : List (String × (ℕ → ℚ) × (ℕ → ℚ)), order.Perm elements ∧
    bands = order.map (fun e => (Cell.str e.1, over s e.2.2)) ∧
    order.Pairwise fun e e' => ∀ t' < s.horizon, ∃ t < s.horizon, e'.2.1 t' ≤ e.2.1 t

/-- C60: productions of a node with their costs, and what is used of them or what is available -/
def productionBands (s : Study) (r : Result) (g d : String) (n : InputNode) (kind : String) (k : ℕ) :
    List (String × (ℕ → ℚ) × (ℕ → ℚ)) :=
  n.productions.zipIdx.map fun p => (p.1.name, val p.1.cost k, fun t =>
    if kind = "avail" then val p.1.quantity k t else (dispatchOf s r k).prod g d p.2 t)

/-- C60: consumptions of a node with their costs, and what they ask for or what they are given -/
def consumptionBands (s : Study) (r : Result) (g d : String) (n : InputNode) (kind : String) (k : ℕ) :
    List (String × (ℕ → ℚ) × (ℕ → ℚ)) :=
  n.consumptions.zipIdx.map fun p => (p.1.name, val p.1.cost k, fun t =>
    if kind = "asked" then val p.1.quantity k t
    else val p.1.quantity k t - (dispatchOf s r k).lol g d p.2 t)

/-- C60: storages of a node, what leaves them -/
def outflowBands (s : Study) (r : Result) (g d : String) (n : InputNode) (k : ℕ) :
    List (String × (ℕ → ℚ) × (ℕ → ℚ)) :=
  n.storages.zipIdx.map fun p => (p.1.name, val p.1.cost k, (dispatchOf s r k).fout g d p.2)

/-- C60: storages of a node, what goes into them -/
def inflowBands (s : Study) (r : Result) (g d : String) (n : InputNode) (k : ℕ) :
    List (String × (ℕ → ℚ) × (ℕ → ℚ)) :=
  n.storages.zipIdx.map fun p => (p.1.name, val p.1.cost k, (dispatchOf s r k).fin g d p.2)

/-- C60: what converters bring to a node -/
def arrivalBands (s : Study) (r : Result) (g d : String) (k : ℕ) : List (String × (ℕ → ℚ)) :=
  (s.converters.filter fun p => decide (p.2.destNetwork = g ∧ p.2.destNode = d)).map fun p =>
    (p.1, (dispatchOf s r k).convDest p.1)

/-- C60: what converters take from a node -/
def departureBands (s : Study) (r : Result) (g d : String) (k : ℕ) : List (String × (ℕ → ℚ)) :=
  (s.converters.filter fun p => decide ([g, d] ∈ p.2.srcRatios.map Prod.fst)).map fun p =>
    (p.1, (dispatchOf s r k).convSrc p.1 (g, d))

/-- C60: what a node exports through links less what it imports -/
def balanceOf (s : Study) (r : Result) (g d : String) (n : InputNode) (k t : ℕ) : ℚ :=
  sumI n.links (fun _ i => (dispatchOf s r k).link g d i t) - imports s (dispatchOf s r k) g d t

/-- C60: a band for exchanges, unless there are none at all -/
def ExchangeOf (s : Study) (name : String) (v : ℕ → ℚ) (bands : List (Cell × List ℚ)) : Prop :=
  ((∀ t < s.horizon, v t = 0) ∧ bands = []) ∨
  ((∃ t < s.horizon, v t ≠ 0) ∧ bands = [(Cell.str name, over s v)])

/-- C61: flow from one node to another through the links of a network -/
def flowBetween (s : Study) (r : Result) (k : ℕ) (g d d' : String) (t : ℕ) : ℚ :=
  sumI (inNode s g d).links fun l i => if l.dest = d' then (dispatchOf s r k).link g d i t else 0

/-- C61: a link goes from one node to the other -/
def Linked (s : Study) (g d d' : String) : Prop := ∃ n, HasNode s g d n ∧ d' ∈ n.links.map (·.dest)

/-- C61: arrows of a map: between linked nodes only, with the net flow in the direction it goes; every pair of
linked nodes has an arrow -/
structure ArrowsOf (s : Study) (g : String) (flow : String → String → ℚ) (arrows : Dict (Cell × Cell) ℚ) :
    Prop where
  once : (arrows.map Prod.fst).Nodup
  drawn : ∀ p ∈ arrows, ∃ x y : String, p.1 = (Cell.str x, Cell.str y) ∧ (Linked s g x y ∨ Linked s g y x) ∧
    p.2 = flow x y - flow y x ∧ 0 ≤ p.2
  all : ∀ x y, Linked s g x y → (flow y x ≤ flow x y → (Cell.str x, Cell.str y) ∈ arrows.map Prod.fst) ∧
    (flow x y < flow y x → (Cell.str y, Cell.str x) ∈ arrows.map Prod.fst)

/-- C61: the highest absolute value -/
def IsPeak (values : List ℚ) (limit : ℚ) : Prop := (∀ v ∈ values, |v| ≤ limit) ∧ ∃ v ∈ values, |v| = limit

end Hadar.Spec
