import Verif.Spec.Json

/-!
# What a JSON file says (independent of the functions that read it)

The grammar of the files of studies and of results: which keys an object must have, may have and must not have, what each
of them holds, and which study or result it stands for.
-/

namespace Hadar.Spec

open Hadar

/-- What `json.loads` gives: plain JSON, where the keys of an object are distinct. -/
inductive Plain : Json → Prop
  | null : Plain .null
  | num (q : ℚ) : Plain (.num q)
  | str (s : String) : Plain (.str s)
  | arr (l : List Json) (h : ∀ x ∈ l, Plain x) : Plain (.arr l)
  | obj (l : List (String × Json)) (hk : (l.map Prod.fst).Nodup) (h : ∀ p ∈ l, Plain p.2) : Plain (.obj l)

/-- the object has no other key -/
def Only (o : List (String × Json)) (keys : List String) : Prop := ∀ p ∈ o, p.1 ∈ keys

/-- the object has the key, with such a value -/
def At (o : List (String × Json)) (k : String) (P : Json → Prop) : Prop := ∃ x, (k, x) ∈ o ∧ P x

/-- the text under a key that may be left out -/
def TextOr (o : List (String × Json)) (k dflt s : String) : Prop :=
  (k, .str s) ∈ o ∨ ((∀ x, (k, x) ∉ o) ∧ s = dflt)

/-- Nested lists of numbers: a number, or a list of lists of the same shape, the empty list having no other dimension.
`Nested shape data j`, where `data` are the numbers as they come. -/
def Nested : List ℕ → List ℚ → Json → Prop
  | [], d, j => ∃ q, d = [q] ∧ j = .num q
  | n :: sh, d, j => ∃ l rows, j = .arr l ∧ l.length = n ∧ (n = 0 → sh = []) ∧ d = rows.flatten ∧
      List.Forall₂ (fun r x => Nested sh r x) rows l

/-- the array written as nested lists -/
def IsArray (j : Json) (a : NdArray) : Prop := Nested a.shape a.data j

/-- A quantity written as a number, one value per time step, one value per scenario, or one value for each. -/
inductive BareSeries (h n : ℕ) : Json → NumVal → Prop
  | number (q : ℚ) : BareSeries h n (.num q) ⟨.scalar q, h, n⟩
  | perTime (j : Json) (a : NdArray) (hj : IsArray j a) (hs : a.shape = [h]) : BareSeries h n j ⟨.row a, h, n⟩
  | perScenario (j : Json) (a : NdArray) (hj : IsArray j a) (hs : a.shape = [n, 1]) :
      BareSeries h n j ⟨.column a, h, n⟩
  | full (j : Json) (a : NdArray) (hj : IsArray j a) (hs : a.shape = [n, h]) (h1 : h ≠ 1) :
      BareSeries h n j ⟨.matrix a, h, n⟩

/-- A quantity in a file: bare, or as hadar writes it, in an object under the key `value`; the other keys of that object do
not count. -/
def ReadSeries (h n : ℕ) (j : Json) (v : NumVal) : Prop :=
  BareSeries h n j v ∨ ∃ o, j = .obj o ∧ At o "value" (BareSeries h n · v)

/-- the parts of a key: what is between the separators, from the left -/
def Parts (key : String) (parts : List String) : Prop :=
  parts ≠ [] ∧ key.toList = List.intercalate [':', ':'] (parts.map String.toList) ∧
    (∀ p ∈ parts, ¬ HasSep p) ∧ ∀ p ∈ parts.dropLast, ¬ EndsColon p

/-! ### Studies -/

def SaysConsumption (h n : ℕ) (j : Json) (c : Consumption) : Prop :=
  ∃ o, j = .obj o ∧ Only o ["cost", "quantity", "name"] ∧ At o "cost" (ReadSeries h n · c.cost) ∧
    At o "quantity" (ReadSeries h n · c.quantity) ∧ TextOr o "name" "" c.name

def SaysProduction (h n : ℕ) (j : Json) (c : Production) : Prop :=
  ∃ o, j = .obj o ∧ Only o ["cost", "quantity", "name"] ∧ At o "cost" (ReadSeries h n · c.cost) ∧
    At o "quantity" (ReadSeries h n · c.quantity) ∧ TextOr o "name" "in" c.name

def SaysStorage (h n : ℕ) (j : Json) (c : Storage) : Prop :=
  ∃ o, j = .obj o ∧ Only o ["name", "capacity", "flow_in", "flow_out", "cost", "init_capacity", "eff"] ∧
    At o "name" (· = .str c.name) ∧ At o "capacity" (ReadSeries h n · c.capacity) ∧
    At o "flow_in" (ReadSeries h n · c.flowIn) ∧ At o "flow_out" (ReadSeries h n · c.flowOut) ∧
    At o "cost" (ReadSeries h n · c.cost) ∧ At o "init_capacity" (· = .num c.initCapacity) ∧
    At o "eff" (ReadSeries h n · c.eff)

def SaysLink (h n : ℕ) (j : Json) (c : Link) : Prop :=
  ∃ o, j = .obj o ∧ Only o ["dest", "quantity", "cost"] ∧ At o "dest" (· = .str c.dest) ∧
    At o "quantity" (ReadSeries h n · c.quantity) ∧ At o "cost" (ReadSeries h n · c.cost)

def SaysConverter (h n : ℕ) (j : Json) (c : Converter) : Prop :=
  ∃ o cost max, j = .obj o ∧ c.cost = .val cost ∧ c.max = .val max ∧
    Only o ["name", "src_ratios", "dest_network", "dest_node", "cost", "max"] ∧ At o "name" (· = .str c.name) ∧
    At o "dest_network" (· = .str c.destNetwork) ∧ At o "dest_node" (· = .str c.destNode) ∧
    At o "cost" (ReadSeries h n · cost) ∧ At o "max" (ReadSeries h n · max) ∧
    At o "src_ratios" fun x => ∃ l, x = .obj l ∧
      List.Forall₂ (fun p q => Parts p.1 q.1 ∧ ReadSeries h n p.2 q.2) l c.srcRatios

/-- the list of elements under a key -/
def Elements {α : Type} (R : Json → α → Prop) (x : Json) (l : List α) : Prop :=
  ∃ js, x = .arr js ∧ List.Forall₂ R js l

/-- named elements under a key, in the order of the file -/
def Named {α : Type} (R : Json → α → Prop) (x : Json) (d : Dict String α) : Prop :=
  ∃ o, x = .obj o ∧ List.Forall₂ (fun p q => p.1 = q.1 ∧ R p.2 q.2) o d

def SaysNode (h n : ℕ) (j : Json) (x : InputNode) : Prop :=
  ∃ o, j = .obj o ∧ Only o ["consumptions", "productions", "storages", "links"] ∧
    At o "consumptions" (Elements (SaysConsumption h n) · x.consumptions) ∧
    At o "productions" (Elements (SaysProduction h n) · x.productions) ∧
    At o "storages" (Elements (SaysStorage h n) · x.storages) ∧
    At o "links" (Elements (SaysLink h n) · x.links)

def SaysNetwork (h n : ℕ) (j : Json) (x : InputNetwork) : Prop :=
  ∃ o, j = .obj o ∧ Only o ["nodes"] ∧ At o "nodes" (Named (SaysNode h n) · x.nodes)

/-- what Python takes for false: null, zero, an empty text, list or object -/
def Falsy (x : Json) : Prop := x = .null ∨ x = .num 0 ∨ x = .str "" ∨ x = .arr [] ∨ x = .obj []

/-- the version written, that of the library when it is false -/
def SaysVersion (x : Json) (v : String) : Prop := (x = .str v ∧ v ≠ "") ∨ (Falsy x ∧ v = "0.5.0")

/-- A file for a study. Other keys at this level do not count. -/
def SaysStudy (j : Json) (s : Study) : Prop :=
  ∃ o, j = .obj o ∧ At o "horizon" (· = .num s.horizon) ∧ At o "nb_scn" (· = .num s.nbScn) ∧
    At o "version" (SaysVersion · s.version) ∧
    At o "networks" (Named (SaysNetwork s.horizon s.nbScn) · s.networks) ∧
    At o "converters" (Named (SaysConverter s.horizon s.nbScn) · s.converters)

/-! ### Results -/

def SaysOutConsumption (j : Json) (c : OutputConsumption) : Prop :=
  ∃ o, j = .obj o ∧ Only o ["quantity", "name"] ∧ At o "quantity" (IsArray · c.quantity) ∧ TextOr o "name" "" c.name

def SaysOutProduction (j : Json) (c : OutputProduction) : Prop :=
  ∃ o, j = .obj o ∧ Only o ["quantity", "name"] ∧ At o "quantity" (IsArray · c.quantity) ∧ TextOr o "name" "in" c.name

def SaysOutStorage (j : Json) (c : OutputStorage) : Prop :=
  ∃ o, j = .obj o ∧ Only o ["name", "capacity", "flow_in", "flow_out"] ∧ At o "name" (· = .str c.name) ∧
    At o "capacity" (IsArray · c.capacity) ∧ At o "flow_in" (IsArray · c.flowIn) ∧ At o "flow_out" (IsArray · c.flowOut)

def SaysOutLink (j : Json) (c : OutputLink) : Prop :=
  ∃ o, j = .obj o ∧ Only o ["dest", "quantity"] ∧ At o "dest" (· = .str c.dest) ∧ At o "quantity" (IsArray · c.quantity)

def SaysOutConverter (j : Json) (c : OutputConverter) : Prop :=
  ∃ o, j = .obj o ∧ Only o ["name", "flow_src", "flow_dest"] ∧ At o "name" (· = .str c.name) ∧
    At o "flow_dest" (IsArray · c.flowDest) ∧
    At o "flow_src" fun x => ∃ l, x = .obj l ∧
      List.Forall₂ (fun p q => Parts p.1 q.1 ∧ IsArray p.2 q.2) l c.flowSrc

def SaysOutNode (j : Json) (x : OutputNode) : Prop :=
  ∃ o, j = .obj o ∧ Only o ["consumptions", "productions", "storages", "links"] ∧
    At o "consumptions" (Elements SaysOutConsumption · x.consumptions) ∧
    At o "productions" (Elements SaysOutProduction · x.productions) ∧
    At o "storages" (Elements SaysOutStorage · x.storages) ∧
    At o "links" (Elements SaysOutLink · x.links)

def SaysOutNetwork (j : Json) (x : OutputNetwork) : Prop :=
  ∃ o, j = .obj o ∧ Only o ["nodes"] ∧ At o "nodes" (Named SaysOutNode · x.nodes)

/-- a list of durations that may be left out or false -/
def TimesOr (o : List (String × Json)) (k : String) (l : List ℚ) : Prop :=
  (k, .arr (l.map .num)) ∈ o ∨ (((∀ x, (k, x) ∉ o) ∨ At o k Falsy) ∧ l = [])

/-- a duration that may be left out -/
def TimeOr (o : List (String × Json)) (k : String) (q : ℚ) : Prop := (k, .num q) ∈ o ∨ ((∀ x, (k, x) ∉ o) ∧ q = 0)

def SaysBenchmark (j : Json) (b : Benchmark) : Prop :=
  ∃ o, j = .obj o ∧ Only o ["modeler", "solver", "mapper", "total"] ∧ TimesOr o "modeler" b.modeler ∧
    TimesOr o "solver" b.solver ∧ TimeOr o "mapper" b.mapper ∧ TimeOr o "total" b.total

/-- A file for a result. Other keys at this level do not count. -/
def SaysResult (j : Json) (r : Result) : Prop :=
  ∃ o, j = .obj o ∧ At o "networks" (Named SaysOutNetwork · r.networks) ∧
    At o "converters" (Named SaysOutConverter · r.converters) ∧ At o "benchmark" (SaysBenchmark · r.benchmark)

end Hadar.Spec
