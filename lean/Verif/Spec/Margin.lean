import Verif.Spec.Prices

/-!
# Dispatches that agree off the margin (independent of the code)
-/

namespace Hadar.Spec

open Hadar

/-- two dispatches do the same with every element that would earn or lose with the prices `P`: they may only differ on elements that
break even -/
structure AgreeOffMargin (s : Study) (k : ℕ) (P : Prices) (D D' : Dispatch) : Prop where
  consumptions : ∀ g d n, HasNode s g d n → ∀ i c, n.consumptions[i]? = some c → ∀ t < s.horizon,
    val c.cost k t ≠ P.node g d t → D.lol g d i t = D'.lol g d i t
  productions : ∀ g d n, HasNode s g d n → ∀ i c, n.productions[i]? = some c → ∀ t < s.horizon,
    val c.cost k t ≠ P.node g d t → D.prod g d i t = D'.prod g d i t
  links : ∀ g d n, HasNode s g d n → ∀ i c, n.links[i]? = some c → ∀ t < s.horizon,
    P.node g d t + val c.cost k t ≠ P.node g c.dest t → D.link g d i t = D'.link g d i t
  held : ∀ g d n, HasNode s g d n → ∀ i c, n.storages[i]? = some c → ∀ t < s.horizon,
    P.stored g d i t + val c.cost k t ≠ P.storedNext s.horizon g d i t → D.cap g d i t = D'.cap g d i t
  filled : ∀ g d n, HasNode s g d n → ∀ i c, n.storages[i]? = some c → ∀ t < s.horizon,
    P.node g d t ≠ val c.eff k t * P.stored g d i t → D.fin g d i t = D'.fin g d i t
  emptied : ∀ g d n, HasNode s g d n → ∀ i c, n.storages[i]? = some c → ∀ t < s.horizon,
    P.stored g d i t ≠ P.node g d t → D.fout g d i t = D'.fout g d i t
  taken : ∀ p ∈ s.converters, ∀ g d r, ([g, d], r) ∈ p.2.srcRatios → ∀ t < s.horizon,
    P.node g d t ≠ val r k t * P.used p.1 (g, d) t → D.convSrc p.1 (g, d) t = D'.convSrc p.1 (g, d) t
  given : ∀ p ∈ s.converters, ∀ t < s.horizon,
    fval p.2.cost k t + (sumL p.2.srcRatios fun q => P.used p.1 (srcPair q.1) t) ≠ P.node p.2.destNetwork p.2.destNode t →
      D.convDest p.1 t = D'.convDest p.1 t

/-- energy at a node and time is worth `c`: some production that costs `c` runs without running fully, or some consumption that costs `c`
is cut without being cut fully -/
def Worth (s : Study) (k : ℕ) (D : Dispatch) (g d : String) (t : ℕ) (c : ℚ) : Prop :=
  (∃ n i p, HasNode s g d n ∧ n.productions[i]? = some p ∧ 0 < D.prod g d i t ∧ D.prod g d i t < val p.quantity k t ∧
    c = val p.cost k t) ∨
  ∃ n i p, HasNode s g d n ∧ n.consumptions[i]? = some p ∧ 0 < D.lol g d i t ∧ D.lol g d i t < val p.quantity k t ∧ c = val p.cost k t

end Hadar.Spec
