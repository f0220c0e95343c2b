import Verif.Spec.LP

/-!
# A study and what is added to it
-/

namespace Hadar.Spec

open Hadar

/-- what a list has beyond the elements of a shorter one -/
def newIn {α : Type} (l l' : List α) : List α := l'.drop l.length

/-- converters of `s` are the same in `s'`: no source was added -/
def SameConverters (s s' : Study) : Prop := ∀ p ∈ s.converters, p ∈ s'.converters

/-- the converter was added -/
def NewConverter (s s' : Study) (p : String × Converter) : Prop := p ∈ s'.converters ∧ p.1 ∉ s.converters.map Prod.fst

/-- what was added to `s` has no negative limit nor ratio, new storages start within their capacity -/
structure NewLimitsOk (s s' : Study) (k : ℕ) : Prop where
  consumptions : ∀ g d n, HasNode s' g d n → ∀ c ∈ newIn (inNode s g d).consumptions n.consumptions, ∀ t < s'.horizon,
    0 ≤ val c.quantity k t
  productions : ∀ g d n, HasNode s' g d n → ∀ c ∈ newIn (inNode s g d).productions n.productions, ∀ t < s'.horizon,
    0 ≤ val c.quantity k t
  links : ∀ g d n, HasNode s' g d n → ∀ c ∈ newIn (inNode s g d).links n.links, ∀ t < s'.horizon,
    0 ≤ val c.quantity k t
  storages : ∀ g d n, HasNode s' g d n → ∀ c ∈ newIn (inNode s g d).storages n.storages, ∀ t < s'.horizon,
    0 ≤ c.initCapacity ∧ c.initCapacity ≤ val c.capacity k t ∧ 0 ≤ val c.flowIn k t ∧ 0 ≤ val c.flowOut k t
  converters : ∀ p, NewConverter s s' p → ∀ t < s'.horizon, 0 ≤ fval p.2.max k t ∧
    ∀ q ∈ p.2.srcRatios, 0 ≤ val q.2 k t

/-- what was added to `s` can do nothing: all its limits are zero -/
structure NewIdle (s s' : Study) (k : ℕ) : Prop where
  consumptions : ∀ g d n, HasNode s' g d n → ∀ c ∈ newIn (inNode s g d).consumptions n.consumptions, ∀ t < s'.horizon,
    val c.quantity k t = 0
  productions : ∀ g d n, HasNode s' g d n → ∀ c ∈ newIn (inNode s g d).productions n.productions, ∀ t < s'.horizon,
    val c.quantity k t = 0
  links : ∀ g d n, HasNode s' g d n → ∀ c ∈ newIn (inNode s g d).links n.links, ∀ t < s'.horizon, val c.quantity k t = 0
  storages : ∀ g d n, HasNode s' g d n → ∀ c ∈ newIn (inNode s g d).storages n.storages, ∀ t < s'.horizon,
    c.initCapacity = 0 ∧ val c.capacity k t = 0 ∧ val c.flowIn k t = 0 ∧ val c.flowOut k t = 0
  converters : ∀ p, NewConverter s s' p → ∀ t < s'.horizon, fval p.2.max k t = 0

/-- what new consumptions and storages cost when consumptions are not served and storages stay as they are -/
def idleCost (s s' : Study) (k : ℕ) : ℚ :=
  sumL (List.range s'.horizon) fun t => sumL s'.networks fun p => sumL p.2.nodes fun q =>
    (sumL (newIn (inNode s p.1 q.1).consumptions q.2.consumptions) fun c => val c.cost k t * val c.quantity k t) +
    sumL (newIn (inNode s p.1 q.1).storages q.2.storages) fun c => val c.cost k t * c.initCapacity

/-- the dispatch `D` of `s`, where new consumptions are not served, and what else is new does nothing -/
def extended (s s' : Study) (k : ℕ) (D : Dispatch) : Dispatch where
  lol g d i t := if i < (inNode s g d).consumptions.length then D.lol g d i t else
    match (inNode s' g d).consumptions[i]? with
    | some c => val c.quantity k t
    | none => 0
  prod g d i t := if i < (inNode s g d).productions.length then D.prod g d i t else 0
  cap g d i t := if i < (inNode s g d).storages.length then D.cap g d i t else
    match (inNode s' g d).storages[i]? with
    | some c => c.initCapacity
    | none => 0
  fin g d i t := if i < (inNode s g d).storages.length then D.fin g d i t else 0
  fout g d i t := if i < (inNode s g d).storages.length then D.fout g d i t else 0
  link g d i t := if i < (inNode s g d).links.length then D.link g d i t else 0
  convSrc c p t := if c ∈ s.converters.map Prod.fst then D.convSrc c p t else 0
  convDest c t := if c ∈ s.converters.map Prod.fst then D.convDest c t else 0

end Hadar.Spec
