import Verif.Spec.LP

/-!
# Prices (independent of the code)

The economic reading of a least cost dispatch: there are prices of energy at each node and time step at which nobody would rather do
something else.
-/

namespace Hadar.Spec

open Hadar

/-- values put on energy -/
structure Prices where
  /-- price of energy at a node -/
  node : String → String → ℕ → ℚ
  /-- value of what a storage (network, node, position) holds at the end of a time step -/
  stored : String → String → ℕ → ℕ → ℚ
  /-- part of the value of the output of a converter that comes from a source -/
  used : String → String × String → ℕ → ℚ

/-- a quantity between 0 and `top`, each unit of which loses `loss`: none of it if it loses, all of it if it earns -/
def Best (loss x top : ℚ) : Prop := (0 < loss → x = 0) ∧ (loss < 0 → x = top)

/-- what a storage holds at the end of the last time step is worth nothing -/
def Prices.storedNext (P : Prices) (h : ℕ) (g d : String) (i t : ℕ) : ℚ := if t + 1 < h then P.stored g d i (t + 1) else 0

/-- the two names of a source -/
def srcPair : List String → String × String
  | [g, d] => (g, d)
  | _ => ("", "")

/-- nobody would rather do something else:
* a consumption is cut only if its cost is not above the price of energy at its node;
* a production runs only if its cost is not above the price, and fully if it is under;
* a link carries energy only if the difference of prices pays for it;
* a storage is filled, emptied and held according to the value of what it holds;
* a converter takes and gives energy according to the prices of its sources and destination; where the ratio is zero it takes any
quantity to no use, so that energy has no negative price there. -/
structure Equilibrium (s : Study) (k : ℕ) (D : Dispatch) (P : Prices) : Prop where
  consumptions : ∀ g d n, HasNode s g d n → ∀ i c, n.consumptions[i]? = some c → ∀ t < s.horizon,
    Best (val c.cost k t - P.node g d t) (D.lol g d i t) (val c.quantity k t)
  productions : ∀ g d n, HasNode s g d n → ∀ i c, n.productions[i]? = some c → ∀ t < s.horizon,
    Best (val c.cost k t - P.node g d t) (D.prod g d i t) (val c.quantity k t)
  links : ∀ g d n, HasNode s g d n → ∀ i c, n.links[i]? = some c → ∀ t < s.horizon,
    Best (val c.cost k t + P.node g d t - P.node g c.dest t) (D.link g d i t) (val c.quantity k t)
  held : ∀ g d n, HasNode s g d n → ∀ i c, n.storages[i]? = some c → ∀ t < s.horizon,
    Best (val c.cost k t + P.stored g d i t - P.storedNext s.horizon g d i t) (D.cap g d i t) (val c.capacity k t)
  filled : ∀ g d n, HasNode s g d n → ∀ i c, n.storages[i]? = some c → ∀ t < s.horizon,
    Best (P.node g d t - val c.eff k t * P.stored g d i t) (D.fin g d i t) (val c.flowIn k t)
  emptied : ∀ g d n, HasNode s g d n → ∀ i c, n.storages[i]? = some c → ∀ t < s.horizon,
    Best (P.stored g d i t - P.node g d t) (D.fout g d i t) (val c.flowOut k t)
  taken : ∀ p ∈ s.converters, ∀ g d r, ([g, d], r) ∈ p.2.srcRatios → ∀ t < s.horizon,
    (val r k t ≠ 0 →
      Best (P.node g d t - val r k t * P.used p.1 (g, d) t) (D.convSrc p.1 (g, d) t) (fval p.2.max k t / val r k t)) ∧
    (val r k t = 0 → 0 ≤ P.node g d t ∧ (0 < P.node g d t → D.convSrc p.1 (g, d) t = 0))
  given : ∀ p ∈ s.converters, ∀ t < s.horizon,
    Best (fval p.2.cost k t + (sumL p.2.srcRatios fun q => P.used p.1 (srcPair q.1) t) -
      P.node p.2.destNetwork p.2.destNode t) (D.convDest p.1 t) (fval p.2.max k t)

/-! ### Ways to bring energy from one node to another -/

/-- one more unit can be brought from node `d` to node `e` of network `g` at time `t`, at cost `c`: by links that can carry more, and by
carrying less on links that go the other way -/
inductive Reaches (s : Study) (k : ℕ) (D : Dispatch) (g : String) (t : ℕ) : String → String → ℚ → Prop
  | here (d) : Reaches s k D g t d d 0
  | more {d e n i l c} : HasNode s g d n → n.links[i]? = some l → D.link g d i t < val l.quantity k t →
      Reaches s k D g t l.dest e c → Reaches s k D g t d e (val l.cost k t + c)
  | less {d e n i l c} : HasNode s g d n → n.links[i]? = some l → 0 < D.link g d i t →
      Reaches s k D g t d e c → Reaches s k D g t l.dest e (c - val l.cost k t)

/-- cost of holding one unit in a storage from time `t` to time `t + m` -/
def holding (k : ℕ) (c : Storage) (t : ℕ) : ℕ → ℚ
  | 0 => 0
  | m + 1 => holding k c t m + val c.cost k (t + m)

/-- one more unit of energy can be produced at a node, at cost `c` -/
def CanProduce (s : Study) (k : ℕ) (D : Dispatch) (g d : String) (t : ℕ) (c : ℚ) : Prop :=
  ∃ n i p, HasNode s g d n ∧ n.productions[i]? = some p ∧ D.prod g d i t < val p.quantity k t ∧ c = val p.cost k t

/-- one more unit of energy at a node would save `c`: by producing less or by serving a consumption that is cut -/
def WouldSave (s : Study) (k : ℕ) (D : Dispatch) (g d : String) (t : ℕ) (c : ℚ) : Prop :=
  (∃ n i p, HasNode s g d n ∧ n.productions[i]? = some p ∧ 0 < D.prod g d i t ∧ c = val p.cost k t) ∨
  ∃ n i p, HasNode s g d n ∧ n.consumptions[i]? = some p ∧ 0 < D.lol g d i t ∧ c = val p.cost k t

end Hadar.Spec
