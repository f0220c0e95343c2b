import Verif.Spec.Sensitivity

/-!
# A study over part of the time steps of another one
-/

namespace Hadar.Spec

open Hadar

/-- series `v'` is series `v` from step `a` on, for `h` steps -/
def Later (h a k k' : ℕ) (v v' : NumVal) : Prop := ∀ t < h, val v' k' t = val v k (a + t)

/-- the node `n'` is the node `n` from step `a` on; nothing is said of the initial levels of storages -/
structure NodeWindow (h a k k' : ℕ) (n n' : InputNode) : Prop where
  consumptions : List.Forall₂ (fun x y => Later h a k k' x.cost y.cost ∧ Later h a k k' x.quantity y.quantity)
    n.consumptions n'.consumptions
  productions : List.Forall₂ (fun x y => Later h a k k' x.cost y.cost ∧ Later h a k k' x.quantity y.quantity)
    n.productions n'.productions
  storages : List.Forall₂ (fun x y => Later h a k k' x.capacity y.capacity ∧ Later h a k k' x.flowIn y.flowIn ∧
    Later h a k k' x.flowOut y.flowOut ∧ Later h a k k' x.cost y.cost ∧ Later h a k k' x.eff y.eff) n.storages n'.storages
  links : List.Forall₂ (fun x y => x.dest = y.dest ∧ Later h a k k' x.cost y.cost ∧ Later h a k k' x.quantity y.quantity)
    n.links n'.links

structure ConverterWindow (h a k k' : ℕ) (c c' : Converter) : Prop where
  sources : List.Forall₂ (fun x y => x.1 = y.1 ∧ Later h a k k' x.2 y.2) c.srcRatios c'.srcRatios
  destNetwork : c.destNetwork = c'.destNetwork
  destNode : c.destNode = c'.destNode
  cost : ∀ t < h, fval c'.cost k' t = fval c.cost k (a + t)
  max : ∀ t < h, fval c'.max k' t = fval c.max k (a + t)

/-- scenario `k'` of `s'` is scenario `k` of `s`, from step `a` on, for as many steps as `s'` has -/
structure Window (a : ℕ) (s : Study) (k : ℕ) (s' : Study) (k' : ℕ) : Prop where
  within : a + s'.horizon ≤ s.horizon
  networks : List.Forall₂ (fun p q => p.1 = q.1 ∧ List.Forall₂ (fun x y => x.1 = y.1 ∧
    NodeWindow s'.horizon a k k' x.2 y.2) p.2.nodes q.2.nodes) s.networks s'.networks
  converters : List.Forall₂ (fun p q => p.1 = q.1 ∧ ConverterWindow s'.horizon a k k' p.2 q.2) s.converters s'.converters

/-- storages of `s'` start at the levels that storages of `s` have in the dispatch `D` before step `a` -/
def StartsFrom (s s' : Study) (D : Dispatch) (a : ℕ) : Prop :=
  ∀ g d n n', HasNode s g d n → HasNode s' g d n' → ∀ (i : ℕ) (c c' : Storage), n.storages[i]? = some c → n'.storages[i]? = some c' →
    c'.initCapacity = levelBefore D g d i c.initCapacity a

/-- storages of both studies start at the same levels -/
def SameStart (s s' : Study) : Prop :=
  ∀ g d n n', HasNode s g d n → HasNode s' g d n' → ∀ (i : ℕ) (c c' : Storage), n.storages[i]? = some c → n'.storages[i]? = some c' →
    c'.initCapacity = c.initCapacity

/-- no cost is negative -/
structure CostsNonneg (s : Study) (k : ℕ) : Prop where
  consumptions : ∀ g d n, HasNode s g d n → ∀ c ∈ n.consumptions, ∀ t < s.horizon, 0 ≤ val c.cost k t
  productions : ∀ g d n, HasNode s g d n → ∀ c ∈ n.productions, ∀ t < s.horizon, 0 ≤ val c.cost k t
  storages : ∀ g d n, HasNode s g d n → ∀ c ∈ n.storages, ∀ t < s.horizon, 0 ≤ val c.cost k t
  links : ∀ g d n, HasNode s g d n → ∀ c ∈ n.links, ∀ t < s.horizon, 0 ≤ val c.cost k t
  converters : ∀ p ∈ s.converters, ∀ t < s.horizon, 0 ≤ fval p.2.cost k t

/-- a dispatch, `a` steps earlier -/
def Dispatch.shift (a : ℕ) (D : Dispatch) : Dispatch where
  lol g d i t := D.lol g d i (a + t)
  prod g d i t := D.prod g d i (a + t)
  cap g d i t := D.cap g d i (a + t)
  fin g d i t := D.fin g d i (a + t)
  fout g d i t := D.fout g d i (a + t)
  link g d i t := D.link g d i (a + t)
  convSrc c p t := D.convSrc c p (a + t)
  convDest c t := D.convDest c (a + t)

/-- a dispatch for `a` steps, then another one -/
def Dispatch.glue (a : ℕ) (D E : Dispatch) : Dispatch where
  lol g d i t := if t < a then D.lol g d i t else E.lol g d i (t - a)
  prod g d i t := if t < a then D.prod g d i t else E.prod g d i (t - a)
  cap g d i t := if t < a then D.cap g d i t else E.cap g d i (t - a)
  fin g d i t := if t < a then D.fin g d i t else E.fin g d i (t - a)
  fout g d i t := if t < a then D.fout g d i t else E.fout g d i (t - a)
  link g d i t := if t < a then D.link g d i t else E.link g d i (t - a)
  convSrc c p t := if t < a then D.convSrc c p t else E.convSrc c p (t - a)
  convDest c t := if t < a then D.convDest c t else E.convDest c (t - a)

end Hadar.Spec
