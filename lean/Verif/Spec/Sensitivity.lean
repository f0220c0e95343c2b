import Verif.Spec.LP

/-!
# Comparing studies

What it means that a study is easier than another, or is another one written in other units.
-/

namespace Hadar.Spec

open Hadar

/-- `R a b t` for the values of two series -/
def Series (h k k' : ℕ) (R : ℚ → ℚ → Prop) (v v' : NumVal) : Prop := ∀ t < h, R (val v k t) (val v' k' t)

/-- the same for costs and maxima of converters -/
def Fields (h k k' : ℕ) (R : ℚ → ℚ → Prop) (v v' : ConvField) : Prop := ∀ t < h, R (fval v k t) (fval v' k' t)

/-- studies with the same elements, in the same order; node `d` of network `g` of both are compared by `N g d`, converters named `c`
by `C c` -/
structure Alike (N : String → String → InputNode → InputNode → Prop) (C : String → Converter → Converter → Prop)
    (s s' : Study) : Prop where
  horizon : s.horizon = s'.horizon
  networks : List.Forall₂ (fun p q => p.1 = q.1 ∧
    List.Forall₂ (fun a b => a.1 = b.1 ∧ N p.1 a.1 a.2 b.2) p.2.nodes q.2.nodes) s.networks s'.networks
  converters : List.Forall₂ (fun p q => p.1 = q.1 ∧ C p.1 p.2 q.2) s.converters s'.converters

/-- comparison of the data of two nodes with the same elements: `cost` compares costs, `limit` compares what bounds productions,
links and storages, `data` compares what is asked by consumptions and what is stored at first -/
structure NodeCmp (h k k' : ℕ) (cost limit data : ℚ → ℚ → Prop) (n n' : InputNode) : Prop where
  consumptions : List.Forall₂ (fun a b => Series h k k' cost a.cost b.cost ∧ Series h k k' data a.quantity b.quantity)
    n.consumptions n'.consumptions
  productions : List.Forall₂ (fun a b => Series h k k' cost a.cost b.cost ∧ Series h k k' limit a.quantity b.quantity)
    n.productions n'.productions
  storages : List.Forall₂ (fun a b => Series h k k' limit a.capacity b.capacity ∧ Series h k k' limit a.flowIn b.flowIn ∧
    Series h k k' limit a.flowOut b.flowOut ∧ Series h k k' cost a.cost b.cost ∧ data a.initCapacity b.initCapacity ∧
    Series h k k' Eq a.eff b.eff) n.storages n'.storages
  links : List.Forall₂ (fun a b => a.dest = b.dest ∧ Series h k k' cost a.cost b.cost ∧
    Series h k k' limit a.quantity b.quantity) n.links n'.links

/-- comparison of the data of two converters with the same ends and ratios -/
structure ConverterCmp (h k k' : ℕ) (cost limit : ℚ → ℚ → Prop) (c c' : Converter) : Prop where
  sources : List.Forall₂ (fun a b => a.1 = b.1 ∧ Series h k k' Eq a.2 b.2) c.srcRatios c'.srcRatios
  destNetwork : c.destNetwork = c'.destNetwork
  destNode : c.destNode = c'.destNode
  cost : Fields h k k' cost c.cost c'.cost
  max : Fields h k k' limit c.max c'.max

/-- studies with the same elements, the data of which are compared -/
def Compared (cost limit data : ℚ → ℚ → Prop) (s : Study) (k : ℕ) (s' : Study) (k' : ℕ) : Prop :=
  Alike (fun _ _ => NodeCmp s.horizon k k' cost limit data) (fun _ => ConverterCmp s.horizon k k' cost limit) s s'

/-- C72: nothing costs more in `s'`, nothing is more limited; consumptions and initial levels are the same -/
def Easier (s : Study) (k : ℕ) (s' : Study) (k' : ℕ) : Prop :=
  Compared (fun x y => y ≤ x) (fun x y => x ≤ y) Eq s k s' k'

/-- C73: `s'` is `s` with all costs multiplied by `a` and all quantities by `b` -/
def Rescaled (a b : ℚ) (s : Study) (k : ℕ) (s' : Study) (k' : ℕ) : Prop :=
  Compared (fun x y => y = a * x) (fun x y => y = b * x) (fun x y => y = b * x) s k s' k'

/-- no ratio of a converter is negative -/
def RatiosNonneg (s : Study) (k : ℕ) : Prop :=
  ∀ p ∈ s.converters, ∀ q ∈ p.2.srcRatios, ∀ t < s.horizon, 0 ≤ val q.2 k t

/-- all flows multiplied by `b` -/
def Dispatch.scale (b : ℚ) (D : Dispatch) : Dispatch where
  lol g d i t := b * D.lol g d i t
  prod g d i t := b * D.prod g d i t
  cap g d i t := b * D.cap g d i t
  fin g d i t := b * D.fin g d i t
  fout g d i t := b * D.fout g d i t
  link g d i t := b * D.link g d i t
  convSrc c p t := b * D.convSrc c p t
  convDest c t := b * D.convDest c t

/-! ### Parts of a study that do not interact -/

/-- a part of a study: nodes (network, node) and converters, at given times -/
structure Part where
  nodes : String → String → ℕ → Prop
  converters : String → ℕ → Prop

/-- nothing links the part to the rest of the study: links and converters are inside or outside, and a node with storages is inside or
outside at all times -/
structure Part.Closed (P : Part) (s : Study) : Prop where
  links : ∀ g d n, HasNode s g d n → ∀ l ∈ n.links, ∀ t < s.horizon, P.nodes g d t ↔ P.nodes g l.dest t
  storages : ∀ g d n, HasNode s g d n → n.storages ≠ [] → ∀ t < s.horizon, ∀ t' < s.horizon,
    P.nodes g d t ↔ P.nodes g d t'
  dest : ∀ p ∈ s.converters, ∀ t < s.horizon, P.converters p.1 t ↔ P.nodes p.2.destNetwork p.2.destNode t
  sources : ∀ p ∈ s.converters, ∀ g d r, ([g, d], r) ∈ p.2.srcRatios → ∀ t < s.horizon,
    P.converters p.1 t ↔ P.nodes g d t

/-- two series are the same at the times in `T` -/
def SameAt (T : ℕ → Prop) (h k k' : ℕ) (v v' : NumVal) : Prop := ∀ t < h, T t → val v k t = val v' k' t

structure SameNodeAt (T : ℕ → Prop) (h k k' : ℕ) (n n' : InputNode) : Prop where
  consumptions : List.Forall₂ (fun a b => SameAt T h k k' a.cost b.cost ∧ SameAt T h k k' a.quantity b.quantity)
    n.consumptions n'.consumptions
  productions : List.Forall₂ (fun a b => SameAt T h k k' a.cost b.cost ∧ SameAt T h k k' a.quantity b.quantity)
    n.productions n'.productions
  storages : List.Forall₂ (fun a b => SameAt T h k k' a.capacity b.capacity ∧ SameAt T h k k' a.flowIn b.flowIn ∧
    SameAt T h k k' a.flowOut b.flowOut ∧ SameAt T h k k' a.cost b.cost ∧ (T 0 → a.initCapacity = b.initCapacity) ∧
    SameAt T h k k' a.eff b.eff) n.storages n'.storages
  links : List.Forall₂ (fun a b => a.dest = b.dest ∧ SameAt T h k k' a.cost b.cost ∧
    SameAt T h k k' a.quantity b.quantity) n.links n'.links

structure SameConverterAt (T : ℕ → Prop) (h k k' : ℕ) (c c' : Converter) : Prop where
  sources : List.Forall₂ (fun a b => a.1 = b.1 ∧ SameAt T h k k' a.2 b.2) c.srcRatios c'.srcRatios
  destNetwork : c.destNetwork = c'.destNetwork
  destNode : c.destNode = c'.destNode
  cost : ∀ t < h, T t → fval c.cost k t = fval c'.cost k' t
  max : ∀ t < h, T t → fval c.max k t = fval c'.max k' t

/-- C75: studies with the same elements, and the same data in a part -/
def SamePart (P : Part) (s : Study) (k : ℕ) (s' : Study) (k' : ℕ) : Prop :=
  Alike (fun g d => SameNodeAt (P.nodes g d) s.horizon k k') (fun c => SameConverterAt (P.converters c) s.horizon k k') s s'

open Classical in
/-- what a part of a study costs -/
noncomputable def costIn (P : Part) (s : Study) (k : ℕ) (D : Dispatch) : ℚ :=
  sumL (List.range s.horizon) fun t =>
    (sumL s.networks fun p => sumL p.2.nodes fun q =>
      if P.nodes p.1 q.1 t then nodeCost k D p.1 q.1 q.2 t else 0) +
    sumL s.converters fun p => if P.converters p.1 t then fval p.2.cost k t * D.convDest p.1 t else 0

/-- what a time step costs -/
def stepCost (s : Study) (k : ℕ) (D : Dispatch) (t : ℕ) : ℚ :=
  (sumL s.networks fun p => sumL p.2.nodes fun q => nodeCost k D p.1 q.1 q.2 t) +
    sumL s.converters fun p => fval p.2.cost k t * D.convDest p.1 t

/-- what a network costs -/
def networkCost (s : Study) (k : ℕ) (D : Dispatch) (g : String) : ℚ :=
  sumL (List.range s.horizon) fun t => sumL (s.networks.filter (·.1 = g)) fun p =>
    sumL p.2.nodes fun q => nodeCost k D p.1 q.1 q.2 t

end Hadar.Spec
