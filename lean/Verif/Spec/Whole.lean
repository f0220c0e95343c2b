import Verif.Spec.Prices

/-!
# Data in whole units (independent of the code)
-/

namespace Hadar.Spec

open Hadar

/-- `q` is a whole number of units `u` -/
def MultipleOf (u q : ℚ) : Prop := ∃ z : ℤ, q = z * u

/-- all costs of scenario `k` are in whole units `u`, say whole cents -/
structure CostsIn (u : ℚ) (s : Study) (k : ℕ) : Prop where
  consumptions : ∀ g d n, HasNode s g d n → ∀ c ∈ n.consumptions, ∀ t < s.horizon, MultipleOf u (val c.cost k t)
  productions : ∀ g d n, HasNode s g d n → ∀ c ∈ n.productions, ∀ t < s.horizon, MultipleOf u (val c.cost k t)
  storages : ∀ g d n, HasNode s g d n → ∀ c ∈ n.storages, ∀ t < s.horizon, MultipleOf u (val c.cost k t)
  links : ∀ g d n, HasNode s g d n → ∀ c ∈ n.links, ∀ t < s.horizon, MultipleOf u (val c.cost k t)
  converters : ∀ p ∈ s.converters, ∀ t < s.horizon, MultipleOf u (fval p.2.cost k t)

/-- all quantities of scenario `k` are in whole units `v`, say whole megawatts -/
structure QuantitiesIn (v : ℚ) (s : Study) (k : ℕ) : Prop where
  consumptions : ∀ g d n, HasNode s g d n → ∀ c ∈ n.consumptions, ∀ t < s.horizon, MultipleOf v (val c.quantity k t)
  productions : ∀ g d n, HasNode s g d n → ∀ c ∈ n.productions, ∀ t < s.horizon, MultipleOf v (val c.quantity k t)
  storages : ∀ g d n, HasNode s g d n → ∀ c ∈ n.storages, MultipleOf v c.initCapacity ∧ ∀ t < s.horizon,
    MultipleOf v (val c.capacity k t) ∧ MultipleOf v (val c.flowIn k t) ∧ MultipleOf v (val c.flowOut k t)
  links : ∀ g d n, HasNode s g d n → ∀ c ∈ n.links, ∀ t < s.horizon, MultipleOf v (val c.quantity k t)
  converters : ∀ p ∈ s.converters, ∀ t < s.horizon, MultipleOf v (fval p.2.max k t)

/-- energy is neither lost nor made: storages give back what they take, and converters give to one node what they take from one -/
structure OneForOne (s : Study) (k : ℕ) : Prop where
  storages : ∀ g d n, HasNode s g d n → ∀ c ∈ n.storages, ∀ t < s.horizon, val c.eff k t = 1
  converters : ∀ p ∈ s.converters, ∃ q, p.2.srcRatios = [q] ∧ ∀ t < s.horizon, val q.2 k t = 1

/-- all prices are in whole units `u` -/
structure PricesIn (u : ℚ) (P : Prices) : Prop where
  node : ∀ g d t, MultipleOf u (P.node g d t)
  stored : ∀ g d i t, MultipleOf u (P.stored g d i t)
  used : ∀ c q t, MultipleOf u (P.used c q t)

/-- `y` is `x` rounded up or down to a whole number of units `v` -/
def RoundedTo (v x y : ℚ) : Prop := MultipleOf v y ∧ |y - x| < v

/-- every flow and level of a dispatch rounded up or down -/
structure Rounded (v : ℚ) (s : Study) (D D' : Dispatch) : Prop where
  lol : ∀ g d n, HasNode s g d n → ∀ i < n.consumptions.length, ∀ t < s.horizon, RoundedTo v (D.lol g d i t) (D'.lol g d i t)
  prod : ∀ g d n, HasNode s g d n → ∀ i < n.productions.length, ∀ t < s.horizon, RoundedTo v (D.prod g d i t) (D'.prod g d i t)
  cap : ∀ g d n, HasNode s g d n → ∀ i < n.storages.length, ∀ t < s.horizon, RoundedTo v (D.cap g d i t) (D'.cap g d i t)
  fin : ∀ g d n, HasNode s g d n → ∀ i < n.storages.length, ∀ t < s.horizon, RoundedTo v (D.fin g d i t) (D'.fin g d i t)
  fout : ∀ g d n, HasNode s g d n → ∀ i < n.storages.length, ∀ t < s.horizon, RoundedTo v (D.fout g d i t) (D'.fout g d i t)
  link : ∀ g d n, HasNode s g d n → ∀ i < n.links.length, ∀ t < s.horizon, RoundedTo v (D.link g d i t) (D'.link g d i t)
  convSrc : ∀ p ∈ s.converters, ∀ g d, [g, d] ∈ p.2.srcRatios.map Prod.fst → ∀ t < s.horizon,
    RoundedTo v (D.convSrc p.1 (g, d) t) (D'.convSrc p.1 (g, d) t)
  convDest : ∀ p ∈ s.converters, ∀ t < s.horizon, RoundedTo v (D.convDest p.1 t) (D'.convDest p.1 t)

end Hadar.Spec
