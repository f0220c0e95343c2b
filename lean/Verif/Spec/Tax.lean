import Verif.Spec.Sensitivity

/-!
# Charging for what elements do

A price on what elements do (a tax on emissions, a fee on the use of a link) adds to their costs.
-/

namespace Hadar.Spec

open Hadar

/-- what has a cost in a study: by network, node and rank, and by name for converters -/
inductive Element where
  | load (g d : String) (i : ℕ)
  | prod (g d : String) (i : ℕ)
  | stor (g d : String) (i : ℕ)
  | link (g d : String) (i : ℕ)
  | conv (c : String)
  deriving DecidableEq, Repr

/-- what is paid for: load not served, energy produced, stored, carried, converted -/
def Element.flow (D : Dispatch) (t : ℕ) : Element → ℚ
  | .load g d i => D.lol g d i t
  | .prod g d i => D.prod g d i t
  | .stor g d i => D.cap g d i t
  | .link g d i => D.link g d i t
  | .conv c => D.convDest c t

/-- the element is in the study -/
def Element.In (s : Study) : Element → Prop
  | .load g d i => ∃ n, HasNode s g d n ∧ i < n.consumptions.length
  | .prod g d i => ∃ n, HasNode s g d n ∧ i < n.productions.length
  | .stor g d i => ∃ n, HasNode s g d n ∧ i < n.storages.length
  | .link g d i => ∃ n, HasNode s g d n ∧ i < n.links.length
  | .conv c => ∃ p ∈ s.converters, p.1 = c

/-- the sum of what the elements of a study do, each weighed (for instance by what a unit of it emits) -/
def weighed (s : Study) (w : Element → ℕ → ℚ) (D : Dispatch) : ℚ :=
  sumL (List.range s.horizon) fun t =>
    (sumL s.networks fun p => sumL p.2.nodes fun q =>
      sumI q.2.consumptions (fun _ i => w (.load p.1 q.1 i) t * (Element.load p.1 q.1 i).flow D t) +
      sumI q.2.productions (fun _ i => w (.prod p.1 q.1 i) t * (Element.prod p.1 q.1 i).flow D t) +
      sumI q.2.storages (fun _ i => w (.stor p.1 q.1 i) t * (Element.stor p.1 q.1 i).flow D t) +
      sumI q.2.links (fun _ i => w (.link p.1 q.1 i) t * (Element.link p.1 q.1 i).flow D t)) +
    sumL s.converters fun p => w (.conv p.1) t * (Element.conv p.1).flow D t

/-- costs of the second list are those of the first plus `x` times the weights, in order -/
def Charged {α : Type} (h k k' : ℕ) (x : ℚ) (w : ℕ → ℕ → ℚ) (c : α → NumVal) (l l' : List α) : Prop :=
  List.Forall₂ (fun a b => ∀ t < h, val (c b.1) k' t = val (c a.1) k t + x * w a.2 t) l.zipIdx l'.zipIdx

/-- the same data, but costs, to which `x` times the weights is added -/
structure TaxedNode (x : ℚ) (w : Element → ℕ → ℚ) (h k k' : ℕ) (g d : String) (n n' : InputNode) : Prop where
  same : NodeCmp h k k' (fun _ _ => True) Eq Eq n n'
  consumptions : Charged h k k' x (fun i => w (.load g d i)) Consumption.cost n.consumptions n'.consumptions
  productions : Charged h k k' x (fun i => w (.prod g d i)) Production.cost n.productions n'.productions
  storages : Charged h k k' x (fun i => w (.stor g d i)) Storage.cost n.storages n'.storages
  links : Charged h k k' x (fun i => w (.link g d i)) Link.cost n.links n'.links

/-- the same for converters -/
structure TaxedConverter (x : ℚ) (w : Element → ℕ → ℚ) (h k k' : ℕ) (name : String) (c c' : Converter) : Prop where
  same : ConverterCmp h k k' (fun _ _ => True) Eq c c'
  cost : ∀ t < h, fval c'.cost k' t = fval c.cost k t + x * w (.conv name) t

/-- C109: the second study is the first one, where `x` is paid for each unit of weight -/
def Taxed (x : ℚ) (w : Element → ℕ → ℚ) (s : Study) (k : ℕ) (s' : Study) (k' : ℕ) : Prop :=
  Alike (TaxedNode x w s.horizon k k') (TaxedConverter x w s.horizon k k') s s'

/-- C109: one element, at some time steps -/
def onlyAt (e : Element) (T : List ℕ) : Element → ℕ → ℚ := fun e' t => if e' = e ∧ t ∈ T then 1 else 0

end Hadar.Spec
