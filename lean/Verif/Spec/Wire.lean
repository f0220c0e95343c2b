import Verif.Model.Wire
import Verif.Spec.Accept

/-! # Types of numbers that can be sent -/

namespace Hadar.Spec

open Hadar

/-- numbers given alone are Python numbers (numeric.py 178 refuses the others); arrays, and the
initial level of a storage, may have any type -/
structure GivenTypes (ty : Types) (s : Study) : Prop where
  consumptions : ∀ g d n, HasNode s g d n → ∀ i c, n.consumptions[i]? = some c →
    (c.cost.isNumber = true → ty (.cons g d i) "cost" = .int ∨ ty (.cons g d i) "cost" = .float) ∧
    (c.quantity.isNumber = true → ty (.cons g d i) "quantity" = .int ∨ ty (.cons g d i) "quantity" = .float)
  productions : ∀ g d n, HasNode s g d n → ∀ i c, n.productions[i]? = some c →
    (c.cost.isNumber = true → ty (.prod g d i) "cost" = .int ∨ ty (.prod g d i) "cost" = .float) ∧
    (c.quantity.isNumber = true → ty (.prod g d i) "quantity" = .int ∨ ty (.prod g d i) "quantity" = .float)
  storages : ∀ g d n, HasNode s g d n → ∀ i c, n.storages[i]? = some c →
    (c.capacity.isNumber = true → ty (.stor g d i) "capacity" = .int ∨ ty (.stor g d i) "capacity" = .float) ∧
    (c.flowIn.isNumber = true → ty (.stor g d i) "flow_in" = .int ∨ ty (.stor g d i) "flow_in" = .float) ∧
    (c.flowOut.isNumber = true → ty (.stor g d i) "flow_out" = .int ∨ ty (.stor g d i) "flow_out" = .float) ∧
    (c.cost.isNumber = true → ty (.stor g d i) "cost" = .int ∨ ty (.stor g d i) "cost" = .float) ∧
    (c.eff.isNumber = true → ty (.stor g d i) "eff" = .int ∨ ty (.stor g d i) "eff" = .float)
  links : ∀ g d n, HasNode s g d n → ∀ i c, n.links[i]? = some c →
    (c.cost.isNumber = true → ty (.link g d i) "cost" = .int ∨ ty (.link g d i) "cost" = .float) ∧
    (c.quantity.isNumber = true → ty (.link g d i) "quantity" = .int ∨ ty (.link g d i) "quantity" = .float)
  converters : ∀ p ∈ s.converters,
    (p.2.cost.isNumber = true → ty (.conv p.1) "cost" = .int ∨ ty (.conv p.1) "cost" = .float) ∧
    (p.2.max.isNumber = true → ty (.conv p.1) "max" = .int ∨ ty (.conv p.1) "max" = .float) ∧
    ∀ q ∈ p.2.srcRatios, q.2.isNumber = true →
      ty (.src p.1 q.1) "ratio" = .int ∨ ty (.src p.1 q.1) "ratio" = .float

/-- the initial level of every storage is a Python number, an `int64` or a `float64` -/
def KnownLevels (ty : Types) (s : Study) : Prop :=
  ∀ g d n, HasNode s g d n → ∀ i < n.storages.length, ty (.stor g d i) "init_capacity" ≠ .other

/-- every number of the study is a Python number, an `int64` or a `float64` -/
structure KnownTypes (ty : Types) (s : Study) : Prop where
  consumptions : ∀ g d n, HasNode s g d n → ∀ i < n.consumptions.length,
    ∀ f ∈ ["cost", "quantity"], ty (.cons g d i) f ≠ .other
  productions : ∀ g d n, HasNode s g d n → ∀ i < n.productions.length,
    ∀ f ∈ ["cost", "quantity"], ty (.prod g d i) f ≠ .other
  storages : ∀ g d n, HasNode s g d n → ∀ i < n.storages.length,
    ∀ f ∈ ["capacity", "flow_in", "flow_out", "cost", "init_capacity", "eff"], ty (.stor g d i) f ≠ .other
  links : ∀ g d n, HasNode s g d n → ∀ i < n.links.length,
    ∀ f ∈ ["cost", "quantity"], ty (.link g d i) f ≠ .other
  converters : ∀ p ∈ s.converters, (∀ f ∈ ["cost", "max"], ty (.conv p.1) f ≠ .other) ∧
    ∀ q ∈ p.2.srcRatios, ty (.src p.1 q.1) "ratio" ≠ .other

end Hadar.Spec
