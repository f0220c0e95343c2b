import Verif.Model.LP
import Verif.Spec.Json

/-!
# The dispatch problem (independent of the code)

Written from `docs/source/mathematics/linear-model.rst`: what a dispatch is, when it is feasible and
what it costs.
-/

namespace Hadar.Spec

open Hadar

/-- a study built by a sequence of calls to the API, with numbers, lists and arrays as data -/
def Built (s : Study) : Prop :=
  ∃ h n cs, (∀ c ∈ cs, RawCall c) ∧ s = ((World.start h n).run cs).study

/-- value of a series of the study for scenario `k` at time `t` -/
def val (v : NumVal) (k t : ℕ) : ℚ :=
  match v.getitem k t with
  | .ok q => q
  | .error _ => 0

/-- cost or max of a converter for scenario `k` at time `t` -/
def fval (c : ConvField) (k t : ℕ) : ℚ :=
  match c with
  | .val v => val v k t
  | .int0 => 0

/-- sum over a list of elements, with their position -/
def sumI {α : Type} (l : List α) (f : α → ℕ → ℚ) : ℚ := (l.zipIdx.map fun p => f p.1 p.2).sum

/-- sum over a list -/
def sumL {α : Type} (l : List α) (f : α → ℚ) : ℚ := (l.map f).sum

/-- What is decided for one scenario. Elements of a node are designated by network, node and
position; the last argument is the time. -/
structure Dispatch where
  /-- consumption that is not served (loss of load) -/
  lol : String → String → ℕ → ℕ → ℚ
  /-- production used -/
  prod : String → String → ℕ → ℕ → ℚ
  /-- level of a storage at the end of the time step -/
  cap : String → String → ℕ → ℕ → ℚ
  /-- flow into a storage -/
  fin : String → String → ℕ → ℕ → ℚ
  /-- flow out of a storage -/
  fout : String → String → ℕ → ℕ → ℚ
  /-- flow of a link, leaving the node -/
  link : String → String → ℕ → ℕ → ℚ
  /-- flow taken by a converter from a source (network, node) -/
  convSrc : String → String × String → ℕ → ℚ
  /-- flow given by a converter to its destination -/
  convDest : String → ℕ → ℚ

/-- all flows and levels within the limits of the study, for scenario `k` -/
structure Bounds (s : Study) (k : ℕ) (D : Dispatch) : Prop where
  consumptions : ∀ g d n, HasNode s g d n → ∀ i c, n.consumptions[i]? = some c → ∀ t < s.horizon,
    0 ≤ D.lol g d i t ∧ D.lol g d i t ≤ val c.quantity k t
  productions : ∀ g d n, HasNode s g d n → ∀ i c, n.productions[i]? = some c → ∀ t < s.horizon,
    0 ≤ D.prod g d i t ∧ D.prod g d i t ≤ val c.quantity k t
  storages : ∀ g d n, HasNode s g d n → ∀ i c, n.storages[i]? = some c → ∀ t < s.horizon,
    (0 ≤ D.cap g d i t ∧ D.cap g d i t ≤ val c.capacity k t) ∧
    (0 ≤ D.fin g d i t ∧ D.fin g d i t ≤ val c.flowIn k t) ∧
    (0 ≤ D.fout g d i t ∧ D.fout g d i t ≤ val c.flowOut k t)
  links : ∀ g d n, HasNode s g d n → ∀ i c, n.links[i]? = some c → ∀ t < s.horizon,
    0 ≤ D.link g d i t ∧ D.link g d i t ≤ val c.quantity k t
  convSrc : ∀ p ∈ s.converters, ∀ g d r, ([g, d], r) ∈ p.2.srcRatios → ∀ t < s.horizon,
    0 ≤ D.convSrc p.1 (g, d) t ∧
      (val r k t ≠ 0 → D.convSrc p.1 (g, d) t ≤ fval p.2.max k t / val r k t)
  convDest : ∀ p ∈ s.converters, ∀ t < s.horizon,
    0 ≤ D.convDest p.1 t ∧ D.convDest p.1 t ≤ fval p.2.max k t

/-- what comes to node `d` of network `g` through the links of the network -/
def imports (s : Study) (D : Dispatch) (g d : String) (t : ℕ) : ℚ :=
  sumL (s.networks.filter (·.1 = g)) fun p => sumL p.2.nodes fun q =>
    sumI q.2.links fun l i => if l.dest = d then D.link g q.1 i t else 0

/-- what node `d` of network `g` gets from converters -/
def fromConverters (s : Study) (D : Dispatch) (g d : String) (t : ℕ) : ℚ :=
  sumL s.converters fun p =>
    if p.2.destNetwork = g ∧ p.2.destNode = d then D.convDest p.1 t else 0

/-- what converters take from node `d` of network `g` -/
def toConverters (s : Study) (D : Dispatch) (g d : String) (t : ℕ) : ℚ :=
  sumL s.converters fun p => sumL p.2.srcRatios fun q =>
    if q.1 = [g, d] then D.convSrc p.1 (g, d) t else 0

/-- what arrives at a node -/
def incoming (s : Study) (D : Dispatch) (g d : String) (n : InputNode) (t : ℕ) : ℚ :=
  sumI n.productions (fun _ i => D.prod g d i t) + sumI n.storages (fun _ i => D.fout g d i t) +
    imports s D g d t + fromConverters s D g d t

/-- what leaves a node; a consumption takes what is asked less the loss of load -/
def outgoing (s : Study) (k : ℕ) (D : Dispatch) (g d : String) (n : InputNode) (t : ℕ) : ℚ :=
  sumI n.consumptions (fun c i => val c.quantity k t - D.lol g d i t) +
    sumI n.storages (fun _ i => D.fin g d i t) + sumI n.links (fun _ i => D.link g d i t) +
    toConverters s D g d t

/-- energy is conserved at every node and time step -/
def Balanced (s : Study) (k : ℕ) (D : Dispatch) : Prop :=
  ∀ g d n, HasNode s g d n → ∀ t < s.horizon, incoming s D g d n t = outgoing s k D g d n t

/-- level of a storage before time `t` -/
def levelBefore (D : Dispatch) (g d : String) (i : ℕ) (init : ℚ) : ℕ → ℚ
  | 0 => init
  | t + 1 => D.cap g d i t

/-- evolution of the `i`-th storage of a node -/
def Evolves (k : ℕ) (D : Dispatch) (g d : String) (i : ℕ) (c : Storage) (t : ℕ) : Prop :=
  D.cap g d i t = levelBefore D g d i c.initCapacity t + val c.eff k t * D.fin g d i t -
    D.fout g d i t

/-- all storages evolve according to their flows, starting from their initial capacity -/
def StorageOk (s : Study) (k : ℕ) (D : Dispatch) : Prop :=
  ∀ g d n, HasNode s g d n → ∀ i c, n.storages[i]? = some c → ∀ t < s.horizon, Evolves k D g d i c t

/-- the output of a converter is its intake from each source times the ratio of the source -/
def RatiosOk (s : Study) (k : ℕ) (D : Dispatch) : Prop :=
  ∀ p ∈ s.converters, ∀ g d r, ([g, d], r) ∈ p.2.srcRatios → ∀ t < s.horizon,
    D.convSrc p.1 (g, d) t * val r k t = D.convDest p.1 t

/-- a feasible dispatch for scenario `k` -/
structure Feasible (s : Study) (k : ℕ) (D : Dispatch) : Prop where
  bounds : Bounds s k D
  balanced : Balanced s k D
  storages : StorageOk s k D
  ratios : RatiosOk s k D

/-- cost of what happens at a node -/
def nodeCost (k : ℕ) (D : Dispatch) (g d : String) (n : InputNode) (t : ℕ) : ℚ :=
  sumI n.consumptions (fun c i => val c.cost k t * D.lol g d i t) +
  sumI n.productions (fun c i => val c.cost k t * D.prod g d i t) +
  sumI n.storages (fun c i => val c.cost k t * D.cap g d i t) +
  sumI n.links (fun c i => val c.cost k t * D.link g d i t)

/-- total cost of a dispatch for scenario `k` -/
def cost (s : Study) (k : ℕ) (D : Dispatch) : ℚ :=
  sumL (List.range s.horizon) fun t =>
    (sumL s.networks fun p => sumL p.2.nodes fun q => nodeCost k D p.1 q.1 q.2 t) +
    sumL s.converters fun p => fval p.2.cost k t * D.convDest p.1 t

/-- what the links of a node bring back to the node itself -/
def selfFlow (D : Dispatch) (g d : String) (n : InputNode) (t : ℕ) : ℚ :=
  sumI n.links fun l i => if l.dest = d then D.link g d i t else 0

/-- same flows on everything the study has -/
structure SameFlows (s : Study) (D D' : Dispatch) : Prop where
  lol : ∀ g d n, HasNode s g d n → ∀ i < n.consumptions.length, ∀ t < s.horizon,
    D.lol g d i t = D'.lol g d i t
  prod : ∀ g d n, HasNode s g d n → ∀ i < n.productions.length, ∀ t < s.horizon,
    D.prod g d i t = D'.prod g d i t
  cap : ∀ g d n, HasNode s g d n → ∀ i < n.storages.length, ∀ t < s.horizon,
    D.cap g d i t = D'.cap g d i t
  fin : ∀ g d n, HasNode s g d n → ∀ i < n.storages.length, ∀ t < s.horizon,
    D.fin g d i t = D'.fin g d i t
  fout : ∀ g d n, HasNode s g d n → ∀ i < n.storages.length, ∀ t < s.horizon,
    D.fout g d i t = D'.fout g d i t
  link : ∀ g d n, HasNode s g d n → ∀ i < n.links.length, ∀ t < s.horizon,
    D.link g d i t = D'.link g d i t
  convSrc : ∀ p ∈ s.converters, ∀ g d, [g, d] ∈ p.2.srcRatios.map Prod.fst → ∀ t < s.horizon,
    D.convSrc p.1 (g, d) t = D'.convSrc p.1 (g, d) t
  convDest : ∀ p ∈ s.converters, ∀ t < s.horizon, D.convDest p.1 t = D'.convDest p.1 t

/-! ### Assumptions on studies -/

/-- no ratio of a converter is zero -/
def RatiosNonzero (s : Study) : Prop :=
  ∀ p ∈ s.converters, ∀ q ∈ p.2.srcRatios, ∀ k < s.nbScn, ∀ t < s.horizon, val q.2 k t ≠ 0

/-- the value was given as an array, not as a number -/
def GivenAsArray (v : NumVal) : Prop := ∀ q, v.kind ≠ .scalar q

/-- a zero among the ratios of a converter is given through an array, of ratios or of maximums, and
the maximum is not zero: numpy then divides the maximum by zero without raising -/
def RatiosUsable (s : Study) : Prop :=
  ∀ p ∈ s.converters, ∀ q ∈ p.2.srcRatios, ∀ k < s.nbScn, ∀ t < s.horizon, val q.2 k t = 0 →
    fval p.2.max k t ≠ 0 ∧ (GivenAsArray q.2 ∨ ∃ v, p.2.max = .val v ∧ GivenAsArray v)

/-- no link from a node to itself -/
def NoSelfLink (s : Study) : Prop :=
  ∀ g d n, HasNode s g d n → ∀ l ∈ n.links, l.dest ≠ d

/-- no node has two storages -/
def OneStorage (s : Study) : Prop :=
  ∀ g d n, HasNode s g d n → n.storages.length ≤ 1

/-- all limits of the study are non-negative for scenario `k`, so are ratios, and storages
start within their capacity -/
structure LimitsOk (s : Study) (k : ℕ) : Prop where
  consumptions : ∀ g d n, HasNode s g d n → ∀ c ∈ n.consumptions, ∀ t < s.horizon,
    0 ≤ val c.quantity k t
  productions : ∀ g d n, HasNode s g d n → ∀ c ∈ n.productions, ∀ t < s.horizon,
    0 ≤ val c.quantity k t
  links : ∀ g d n, HasNode s g d n → ∀ c ∈ n.links, ∀ t < s.horizon, 0 ≤ val c.quantity k t
  storages : ∀ g d n, HasNode s g d n → ∀ c ∈ n.storages, ∀ t < s.horizon,
    0 ≤ c.initCapacity ∧ c.initCapacity ≤ val c.capacity k t ∧ 0 ≤ val c.flowIn k t ∧
      0 ≤ val c.flowOut k t
  converters : ∀ p ∈ s.converters, ∀ t < s.horizon, 0 ≤ fval p.2.max k t ∧
    ∀ q ∈ p.2.srcRatios, 0 ≤ val q.2 k t

/-! ### Two studies with the same data for one scenario -/

/-- series `v` for scenario `k` and series `v'` for scenario `k'` are the same -/
def SameSeries (h k k' : ℕ) (v v' : NumVal) : Prop := ∀ t < h, val v k t = val v' k' t

structure SameNode (h k k' : ℕ) (n n' : InputNode) : Prop where
  consumptions : List.Forall₂ (fun a b => a.name = b.name ∧ SameSeries h k k' a.cost b.cost ∧
    SameSeries h k k' a.quantity b.quantity) n.consumptions n'.consumptions
  productions : List.Forall₂ (fun a b => a.name = b.name ∧ SameSeries h k k' a.cost b.cost ∧
    SameSeries h k k' a.quantity b.quantity) n.productions n'.productions
  storages : List.Forall₂ (fun a b => a.name = b.name ∧ SameSeries h k k' a.capacity b.capacity ∧
    SameSeries h k k' a.flowIn b.flowIn ∧ SameSeries h k k' a.flowOut b.flowOut ∧
    SameSeries h k k' a.cost b.cost ∧ a.initCapacity = b.initCapacity ∧
    SameSeries h k k' a.eff b.eff) n.storages n'.storages
  links : List.Forall₂ (fun a b => a.dest = b.dest ∧ SameSeries h k k' a.cost b.cost ∧
    SameSeries h k k' a.quantity b.quantity) n.links n'.links

structure SameConverter (h k k' : ℕ) (c c' : Converter) : Prop where
  name : c.name = c'.name
  sources : List.Forall₂ (fun a b => a.1 = b.1 ∧ SameSeries h k k' a.2 b.2) c.srcRatios c'.srcRatios
  destNetwork : c.destNetwork = c'.destNetwork
  destNode : c.destNode = c'.destNode
  cost : ∀ t < h, fval c.cost k t = fval c'.cost k' t
  max : ∀ t < h, fval c.max k t = fval c'.max k' t

/-- C25: studies with the same elements; what `s` has for scenario `k` is what `s'` has for
scenario `k'`. Nothing is said of other scenarios, not even their number. -/
structure SameScenario (s : Study) (k : ℕ) (s' : Study) (k' : ℕ) : Prop where
  horizon : s.horizon = s'.horizon
  networks : List.Forall₂ (fun p q => p.1 = q.1 ∧ List.Forall₂ (fun a b => a.1 = b.1 ∧
    SameNode s.horizon k k' a.2 b.2) p.2.nodes q.2.nodes) s.networks s'.networks
  converters : List.Forall₂ (fun p q => p.1 = q.1 ∧ SameConverter s.horizon k k' p.2 q.2)
    s.converters s'.converters

/-! ### What is read in a result -/

/-- cell of an array for scenario `k` at time `t` -/
def cell (a : NdArray) (k t : ℕ) : ℚ :=
  match a.get2 k t with
  | .ok q => q
  | .error _ => 0

def inNode (s : Study) (g d : String) : InputNode :=
  ((s.networks.get? g).bind fun net => net.nodes.get? d).getD ⟨[], [], [], []⟩

def outNode (r : Result) (g d : String) : OutputNode :=
  ((r.networks.get? g).bind fun net => net.nodes.get? d).getD ⟨[], [], [], []⟩

/-- the array of the `i`-th element, read for scenario `k` at time `t` -/
def cellAt {α : Type} (l : List α) (i : ℕ) (f : α → NdArray) (k t : ℕ) : ℚ :=
  match l[i]? with
  | some o => cell (f o) k t
  | none => 0

/-- the dispatch a result describes for scenario `k`. Results hold what is given to a consumption:
the loss of load is what was asked less what is given. -/
def dispatchOf (s : Study) (r : Result) (k : ℕ) : Dispatch where
  lol g d i t := match (inNode s g d).consumptions[i]? with
    | some c => val c.quantity k t - cellAt (outNode r g d).consumptions i (·.quantity) k t
    | none => 0
  prod g d i t := cellAt (outNode r g d).productions i (·.quantity) k t
  cap g d i t := cellAt (outNode r g d).storages i (·.capacity) k t
  fin g d i t := cellAt (outNode r g d).storages i (·.flowIn) k t
  fout g d i t := cellAt (outNode r g d).storages i (·.flowOut) k t
  link g d i t := cellAt (outNode r g d).links i (·.quantity) k t
  convSrc c p t := match (r.converters.get? c).bind fun o => o.flowSrc.get? [p.1, p.2] with
    | some a => cell a k t
    | none => 0
  convDest c t := match r.converters.get? c with
    | some o => cell o.flowDest k t
    | none => 0

/-- the dispatch made by the values of the variables of the solver -/
def ofVars (x : Var → ℚ) : Dispatch where
  lol g d i t := x (.lol t g d i)
  prod g d i t := x (.prod t g d i)
  cap g d i t := x (.cap t g d i)
  fin g d i t := x (.fin t g d i)
  fout g d i t := x (.fout t g d i)
  link g d i t := x (.link t g d i)
  convSrc c p t := x (.convSrc t c [p.1, p.2])
  convDest c t := x (.convDest t c)

/-- a full array: one cell per scenario and time -/
def Full (s : Study) (a : NdArray) : Prop :=
  a.shape = [s.nbScn, s.horizon] ∧ a.data.length = s.nbScn * s.horizon

/-- C26: the node of the result has the elements of the node of the study, in the same order, with
full arrays -/
structure MirrorsNode (s : Study) (n : InputNode) (o : OutputNode) : Prop where
  consumptions : List.Forall₂ (fun a b => a.name = b.name ∧ Full s b.quantity)
    n.consumptions o.consumptions
  productions : List.Forall₂ (fun a b => a.name = b.name ∧ Full s b.quantity)
    n.productions o.productions
  storages : List.Forall₂ (fun a b => a.name = b.name ∧ Full s b.capacity ∧ Full s b.flowIn ∧
    Full s b.flowOut) n.storages o.storages
  links : List.Forall₂ (fun a b => a.dest = b.dest ∧ Full s b.quantity) n.links o.links

/-- C26: the result has the structure of the study -/
structure Mirrors (s : Study) (r : Result) : Prop where
  networks : List.Forall₂ (fun p q => p.1 = q.1 ∧ List.Forall₂ (fun a b => a.1 = b.1 ∧
    MirrorsNode s a.2 b.2) p.2.nodes q.2.nodes) s.networks r.networks
  converters : List.Forall₂ (fun p q => p.1 = q.1 ∧ q.2.name = p.2.name ∧
    List.Forall₂ (fun a b => a.1 = b.1 ∧ Full s b.2) p.2.srcRatios q.2.flowSrc ∧
    Full s q.2.flowDest) s.converters r.converters

/-- what is asked of a study for `solve_lp` to go through: it was built through the API, every
converter was given a destination and ratios by which its maximum can be divided, and the names of
the sources of converters cannot be confused by the "::" of the messages of the workers -/
structure Ready (s : Study) : Prop where
  built : Built s
  complete : CompleteConverters s
  ratios : RatiosUsable s
  clean : CleanSources s

/-- the answer of the solver to the problem of scenario `k` satisfies `P` -/
def Answers (solver : Solver) (s : Study) (k : ℕ) (P : List Cmd → (Var → ℚ) → Prop) : Prop :=
  ∀ steps log, buildAll s k = .ok (steps, log) → P log (solver log)

end Hadar.Spec

namespace Hadar

open Spec

/-- what the code asks of a dispatch, where it differs from the documented problem (`Spec.Feasible`): what a link brings from a node to
itself comes in twice (so that it comes for free), and only the first storage of a node keeps account of its level -/
structure CodeFeasible (s : Study) (k : ℕ) (D : Dispatch) : Prop where
  bounds : Bounds s k D
  balance : ∀ g d n, HasNode s g d n → ∀ t < s.horizon,
    incoming s D g d n t + selfFlow D g d n t = outgoing s k D g d n t
  storages : ∀ g d n, HasNode s g d n → ∀ c, n.storages.head? = some c → ∀ t < s.horizon,
    Evolves k D g d 0 c t
  ratios : RatiosOk s k D

end Hadar
