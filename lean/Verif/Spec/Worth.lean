import Verif.Spec.Prices
import Verif.Spec.Sensitivity

/-!
# What a study is worth at given prices (independent of the code)

Each consumption pays the price of energy, or what it costs to cut it if that is less. Each production, link, storage and converter earns
what its owner can make of it at these prices. What is left is the cost of the study.
-/

namespace Hadar.Spec

open Hadar

variable (s : Study) (k : ℕ) (P : Prices)

/-- what the consumptions of a node pay, less what its productions, links and storages earn, at time `t` -/
def nodeWorth (t : ℕ) (g d : String) (n : InputNode) : ℚ :=
  sumI n.consumptions (fun c _ => min (P.node g d t) (val c.cost k t) * val c.quantity k t) -
  sumI n.productions (fun c _ => max 0 (P.node g d t - val c.cost k t) * val c.quantity k t) -
  sumI n.links (fun c _ => max 0 (P.node g c.dest t - P.node g d t - val c.cost k t) * val c.quantity k t) -
  sumI n.storages (fun c i =>
    max 0 (P.storedNext s.horizon g d i t - P.stored g d i t - val c.cost k t) * val c.capacity k t) -
  sumI n.storages (fun c i => max 0 (val c.eff k t * P.stored g d i t - P.node g d t) * val c.flowIn k t) -
  sumI n.storages (fun c i => max 0 (P.node g d t - P.stored g d i t) * val c.flowOut k t)

/-- what a converter earns; nothing with a source whose ratio is zero (`x / 0` is `0`) -/
def convWorth (t : ℕ) (p : String × Converter) : ℚ :=
  max 0 (P.node p.2.destNetwork p.2.destNode t - (sumL p.2.srcRatios fun q => P.used p.1 (srcPair q.1) t) - fval p.2.cost k t) *
    fval p.2.max k t +
  sumL p.2.srcRatios fun q => max 0 (val q.2 k t * P.used p.1 (srcPair q.1) t - P.node (srcPair q.1).1 (srcPair q.1).2 t) *
    (fval p.2.max k t / val q.2 k t)

/-- energy has no negative price where a converter takes it to no use, with a ratio of zero -/
def DrainsPriced : Prop :=
  ∀ p ∈ s.converters, ∀ g d r, ([g, d], r) ∈ p.2.srcRatios → ∀ t < s.horizon, val r k t = 0 → 0 ≤ P.node g d t

/-- what storages hold at first -/
def firstWorth (g d : String) (n : InputNode) : ℚ := sumI n.storages fun c i => P.stored g d i 0 * c.initCapacity

/-- what the study is worth: all payments less all earnings -/
def worth : ℚ :=
  (sumL (List.range s.horizon) fun t =>
    (sumL s.networks fun p => sumL p.2.nodes fun q => nodeWorth s k P t p.1 q.1 q.2) - sumL s.converters (convWorth k P t)) -
  if s.horizon = 0 then 0 else sumL s.networks fun p => sumL p.2.nodes fun q => firstWorth P p.1 q.1 q.2

/-- same study with other loads: consumptions may ask for more or less, everything else is the same -/
def OtherLoads (s : Study) (k : ℕ) (s' : Study) (k' : ℕ) : Prop :=
  Alike (fun _ _ n n' => List.Forall₂ (fun a b => Series s.horizon k k' Eq a.cost b.cost) n.consumptions n'.consumptions ∧
      NodeCmp s.horizon k k' Eq Eq Eq { n with consumptions := [] } { n' with consumptions := [] })
    (fun _ => ConverterCmp s.horizon k k' Eq Eq) s s'

/-- what consumptions ask for, all nodes and times together, each unit counted at the price of energy, or at what it costs to cut it if
that is less -/
def loadWorth : ℚ :=
  sumL (List.range s.horizon) fun t => sumL s.networks fun p => sumL p.2.nodes fun q =>
    sumI q.2.consumptions fun c _ => min (P.node p.1 q.1 t) (val c.cost k t) * val c.quantity k t

end Hadar.Spec
