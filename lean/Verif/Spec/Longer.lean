import Verif.Spec.LP

/-!
# Specification of C132: a study with longer time steps
-/

namespace Hadar.Spec

open Hadar

/-- the time steps that long step `τ` is made of; it begins at `start τ` -/
def stepsOf (start : ℕ → ℕ) (τ : ℕ) : List ℕ := List.range' (start τ) (start (τ + 1) - start τ)

/-- the last one of them -/
def endOf (start : ℕ → ℕ) (τ : ℕ) : ℕ := start (τ + 1) - 1

/-- `h` time steps put together into `h'` long ones, each one made of at least one -/
structure Cutting (start : ℕ → ℕ) (h h' : ℕ) : Prop where
  first : start 0 = 0
  last : start h' = h
  step : ∀ τ < h', start τ < start (τ + 1)

/-- `R` between the sum of a series over each long step and the value of the other series there -/
def Summed (start : ℕ → ℕ) (h' k k' : ℕ) (R : ℚ → ℚ → Prop) (v v' : NumVal) : Prop :=
  ∀ τ < h', R (sumL (stepsOf start τ) fun t => val v k t) (val v' k' τ)

/-- `R` between all values of a series within each long step and the value of the other series there -/
def Throughout (start : ℕ → ℕ) (h' k k' : ℕ) (R : ℚ → ℚ → Prop) (v v' : NumVal) : Prop :=
  ∀ τ < h', ∀ t ∈ stepsOf start τ, R (val v k t) (val v' k' τ)

/-- a node with longer time steps: consumptions ask for the sum of what they asked for, productions, links and flows of storages have at
least the sum of their limits; nothing costs more; storages keep their first level and efficiency, have at least the room they had at
the end of each long step, and holding energy within a long step is not paid for -/
structure LongerNode (start : ℕ → ℕ) (h' k k' : ℕ) (n n' : InputNode) : Prop where
  consumptions : List.Forall₂ (fun a b => Throughout start h' k k' (fun x y => y ≤ x) a.cost b.cost ∧
    Summed start h' k k' Eq a.quantity b.quantity) n.consumptions n'.consumptions
  productions : List.Forall₂ (fun a b => Throughout start h' k k' (fun x y => y ≤ x) a.cost b.cost ∧
    Summed start h' k k' (fun x y => x ≤ y) a.quantity b.quantity) n.productions n'.productions
  storages : List.Forall₂ (fun a b => (∀ τ < h', val a.capacity k (endOf start τ) ≤ val b.capacity k' τ) ∧
    Summed start h' k k' (fun x y => x ≤ y) a.flowIn b.flowIn ∧ Summed start h' k k' (fun x y => x ≤ y) a.flowOut b.flowOut ∧
    (∀ τ < h', val b.cost k' τ ≤ val a.cost k (endOf start τ) ∧
      ∀ t ∈ stepsOf start τ, t ≠ endOf start τ → 0 ≤ val a.cost k t) ∧
    a.initCapacity = b.initCapacity ∧ Throughout start h' k k' Eq a.eff b.eff) n.storages n'.storages
  links : List.Forall₂ (fun a b => a.dest = b.dest ∧ Throughout start h' k k' (fun x y => y ≤ x) a.cost b.cost ∧
    Summed start h' k k' (fun x y => x ≤ y) a.quantity b.quantity) n.links n'.links

/-- a converter with longer time steps: same ends, same ratios within each long step, the sum of its maxima, no greater cost -/
structure LongerConverter (start : ℕ → ℕ) (h' k k' : ℕ) (c c' : Converter) : Prop where
  sources : List.Forall₂ (fun a b => a.1 = b.1 ∧ Throughout start h' k k' Eq a.2 b.2) c.srcRatios c'.srcRatios
  destNetwork : c.destNetwork = c'.destNetwork
  destNode : c.destNode = c'.destNode
  cost : ∀ τ < h', ∀ t ∈ stepsOf start τ, fval c'.cost k' τ ≤ fval c.cost k t
  max : ∀ τ < h', (sumL (stepsOf start τ) fun t => fval c.max k t) = fval c'.max k' τ

/-- `s'` has the elements of `s`, with longer time steps -/
structure Longer (start : ℕ → ℕ) (s : Study) (k : ℕ) (s' : Study) (k' : ℕ) : Prop where
  cutting : Cutting start s.horizon s'.horizon
  networks : List.Forall₂ (fun p q => p.1 = q.1 ∧ List.Forall₂ (fun a b => a.1 = b.1 ∧
    LongerNode start s'.horizon k k' a.2 b.2) p.2.nodes q.2.nodes) s.networks s'.networks
  converters : List.Forall₂ (fun p q => p.1 = q.1 ∧ LongerConverter start s'.horizon k k' p.2 q.2) s.converters s'.converters

/-- flows added up over each long step, levels at its end -/
def Dispatch.over (start : ℕ → ℕ) (D : Dispatch) : Dispatch where
  lol g d i τ := sumL (stepsOf start τ) fun t => D.lol g d i t
  prod g d i τ := sumL (stepsOf start τ) fun t => D.prod g d i t
  cap g d i τ := D.cap g d i (endOf start τ)
  fin g d i τ := sumL (stepsOf start τ) fun t => D.fin g d i t
  fout g d i τ := sumL (stepsOf start τ) fun t => D.fout g d i t
  link g d i τ := sumL (stepsOf start τ) fun t => D.link g d i t
  convSrc c x τ := sumL (stepsOf start τ) fun t => D.convSrc c x t
  convDest c τ := sumL (stepsOf start τ) fun t => D.convDest c t

end Hadar.Spec
