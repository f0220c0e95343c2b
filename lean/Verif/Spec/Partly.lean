import Verif.Spec.LP

/-!
# Quantities that are partly used (independent of the code)
-/

namespace Hadar.Spec

open Hadar

/-- the quantities of a dispatch at a time -/
inductive Quantity where
  | cut (g d : String) (i : ℕ)
  | produced (g d : String) (i : ℕ)
  | held (g d : String) (i : ℕ)
  | filled (g d : String) (i : ℕ)
  | emptied (g d : String) (i : ℕ)
  | sent (g d : String) (i : ℕ)
  | taken (c : String) (src : String × String)
  | given (c : String)
  deriving DecidableEq

/-- every quantity is zero or as much as it may be, but those listed in `L` with the time -/
structure AtLimitsBut (s : Study) (k : ℕ) (D : Dispatch) (L : List (Quantity × ℕ)) : Prop where
  consumptions : ∀ g d n, HasNode s g d n → ∀ i c, n.consumptions[i]? = some c → ∀ t < s.horizon,
    D.lol g d i t = 0 ∨ D.lol g d i t = val c.quantity k t ∨ (.cut g d i, t) ∈ L
  productions : ∀ g d n, HasNode s g d n → ∀ i c, n.productions[i]? = some c → ∀ t < s.horizon,
    D.prod g d i t = 0 ∨ D.prod g d i t = val c.quantity k t ∨ (.produced g d i, t) ∈ L
  held : ∀ g d n, HasNode s g d n → ∀ i c, n.storages[i]? = some c → ∀ t < s.horizon,
    D.cap g d i t = 0 ∨ D.cap g d i t = val c.capacity k t ∨ (.held g d i, t) ∈ L
  filled : ∀ g d n, HasNode s g d n → ∀ i c, n.storages[i]? = some c → ∀ t < s.horizon,
    D.fin g d i t = 0 ∨ D.fin g d i t = val c.flowIn k t ∨ (.filled g d i, t) ∈ L
  emptied : ∀ g d n, HasNode s g d n → ∀ i c, n.storages[i]? = some c → ∀ t < s.horizon,
    D.fout g d i t = 0 ∨ D.fout g d i t = val c.flowOut k t ∨ (.emptied g d i, t) ∈ L
  links : ∀ g d n, HasNode s g d n → ∀ i c, n.links[i]? = some c → ∀ t < s.horizon,
    D.link g d i t = 0 ∨ D.link g d i t = val c.quantity k t ∨ (.sent g d i, t) ∈ L
  convSrc : ∀ p ∈ s.converters, ∀ g d r, ([g, d], r) ∈ p.2.srcRatios → ∀ t < s.horizon,
    D.convSrc p.1 (g, d) t = 0 ∨ (val r k t ≠ 0 ∧ D.convSrc p.1 (g, d) t = fval p.2.max k t / val r k t) ∨ (.taken p.1 (g, d), t) ∈ L
  convDest : ∀ p ∈ s.converters, ∀ t < s.horizon,
    D.convDest p.1 t = 0 ∨ D.convDest p.1 t = fval p.2.max k t ∨ (.given p.1, t) ∈ L

/-- `D'` leaves as they are the quantities that `D` has at zero or at most -/
structure KeepsLimits (s : Study) (k : ℕ) (D D' : Dispatch) : Prop where
  consumptions : ∀ g d n, HasNode s g d n → ∀ i c, n.consumptions[i]? = some c → ∀ t < s.horizon,
    D.lol g d i t = 0 ∨ D.lol g d i t = val c.quantity k t → D'.lol g d i t = D.lol g d i t
  productions : ∀ g d n, HasNode s g d n → ∀ i c, n.productions[i]? = some c → ∀ t < s.horizon,
    D.prod g d i t = 0 ∨ D.prod g d i t = val c.quantity k t → D'.prod g d i t = D.prod g d i t
  held : ∀ g d n, HasNode s g d n → ∀ i c, n.storages[i]? = some c → ∀ t < s.horizon,
    D.cap g d i t = 0 ∨ D.cap g d i t = val c.capacity k t → D'.cap g d i t = D.cap g d i t
  filled : ∀ g d n, HasNode s g d n → ∀ i c, n.storages[i]? = some c → ∀ t < s.horizon,
    D.fin g d i t = 0 ∨ D.fin g d i t = val c.flowIn k t → D'.fin g d i t = D.fin g d i t
  emptied : ∀ g d n, HasNode s g d n → ∀ i c, n.storages[i]? = some c → ∀ t < s.horizon,
    D.fout g d i t = 0 ∨ D.fout g d i t = val c.flowOut k t → D'.fout g d i t = D.fout g d i t
  links : ∀ g d n, HasNode s g d n → ∀ i c, n.links[i]? = some c → ∀ t < s.horizon,
    D.link g d i t = 0 ∨ D.link g d i t = val c.quantity k t → D'.link g d i t = D.link g d i t
  convSrc : ∀ p ∈ s.converters, ∀ g d r, ([g, d], r) ∈ p.2.srcRatios → ∀ t < s.horizon,
    D.convSrc p.1 (g, d) t = 0 ∨ (val r k t ≠ 0 ∧ D.convSrc p.1 (g, d) t = fval p.2.max k t / val r k t) →
      D'.convSrc p.1 (g, d) t = D.convSrc p.1 (g, d) t
  convDest : ∀ p ∈ s.converters, ∀ t < s.horizon,
    D.convDest p.1 t = 0 ∨ D.convDest p.1 t = fval p.2.max k t → D'.convDest p.1 t = D.convDest p.1 t

/-- one for each node, each storage and each source of a converter, at each time -/
def placesWithin (s : Study) : ℕ :=
  s.horizon * ((s.networks.map fun p => (p.2.nodes.map fun q => 1 + q.2.storages.length).sum).sum +
    (s.converters.map fun p => p.2.srcRatios.length).sum)

end Hadar.Spec
