import Verif.Model.Output
import Verif.Spec.Study

/-!
# What serialisation has to respect (independent of the code)
-/

namespace Hadar.Spec

open Hadar

/-- the text contains the separator `::` -/
def HasSep (s : String) : Prop := [':', ':'] <:+: s.toList

/-- the text ends with a colon -/
def EndsColon (s : String) : Prop := [':'] <:+ s.toList

/-- names that the separator does not confuse -/
def CleanPair (network node : String) : Prop :=
  ¬ HasSep network ∧ ¬ EndsColon network ∧ ¬ HasSep node

/-- all converter sources have names that the separator does not confuse -/
def CleanSources (s : Study) : Prop :=
  ∀ p ∈ s.converters, ∀ g d, [g, d] ∈ p.2.srcRatios.map Prod.fst → CleanPair g d

/-- every converter has been given a destination, hence a cost and a max -/
def CompleteConverters (s : Study) : Prop :=
  ∀ p ∈ s.converters, p.2.cost ≠ .int0 ∧ p.2.max ≠ .int0

/-- the integer `0` of a converter without destination, read back as a series -/
def filledField (h n : ℕ) : ConvField → ConvField
  | .int0 => .val ⟨.scalar 0, h, n⟩
  | .val v => .val v

/-- the study where the integer `0` of converters without destination is the series `0` -/
def filled (s : Study) : Study :=
  { s with
    converters := s.converters.map fun p => (p.1, { p.2 with
      cost := filledField s.horizon s.nbScn p.2.cost
      max := filledField s.horizon s.nbScn p.2.max }) }

/-- an array `tolist()` does not flatten: no empty dimension except possibly the last one. Arrays
made by the optimizer have shape `(nb_scn, horizon)`, with `nb_scn > 0`. -/
def Dense (a : NdArray) : Prop := 0 ∉ a.shape.dropLast

structure DenseNode (n : OutputNode) : Prop where
  consumptions : ∀ c ∈ n.consumptions, Dense c.quantity
  productions : ∀ c ∈ n.productions, Dense c.quantity
  storages : ∀ c ∈ n.storages, Dense c.capacity ∧ Dense c.flowIn ∧ Dense c.flowOut
  links : ∀ c ∈ n.links, Dense c.quantity

/-- a result whose arrays keep their shape as lists and whose names are unique and clean -/
structure ResultOk (r : Result) : Prop where
  networks : (r.networks.map Prod.fst).Nodup
  nodes : ∀ p ∈ r.networks, (p.2.nodes.map Prod.fst).Nodup
  dense : ∀ p ∈ r.networks, ∀ q ∈ p.2.nodes, DenseNode q.2
  converters : (r.converters.map Prod.fst).Nodup
  sources : ∀ p ∈ r.converters, (p.2.flowSrc.map Prod.fst).Nodup
  keys : ∀ p ∈ r.converters, ∀ k ∈ p.2.flowSrc.map Prod.fst,
    ∃ g d, k = [g, d] ∧ CleanPair g d
  convDense : ∀ p ∈ r.converters, (∀ q ∈ p.2.flowSrc, Dense q.2) ∧ Dense p.2.flowDest

end Hadar.Spec
