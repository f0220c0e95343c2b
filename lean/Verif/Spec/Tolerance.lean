import Verif.Spec.Worth

/-!
# Answers up to a tolerance (independent of the code)

Solvers compute with floating point numbers: what they answer breaks limits and constraints a little. Here is what an answer is worth when
every limit and every constraint is broken by at most `e`.
-/

namespace Hadar.Spec

open Hadar

/-- between `0` and a limit, give or take `e` -/
def NearLimits (e x u : ℚ) : Prop := -e ≤ x ∧ x ≤ u + e

/-- two numbers that differ by at most `e` -/
def Near (e x y : ℚ) : Prop := x ≤ y + e ∧ y ≤ x + e

instance (e x u : ℚ) : Decidable (NearLimits e x u) := by unfold NearLimits; infer_instance
instance (e x y : ℚ) : Decidable (Near e x y) := by unfold Near; infer_instance

/-- the answer breaks no bound and no constraint of the problem by more than `e` -/
structure NearAnswer (e : ℚ) (log : List Cmd) (x : Var → ℚ) : Prop where
  vars : ∀ v lb ub, .numVar v lb ub ∈ log → lb - e ≤ x v ∧ x v ≤ ub + e
  varsInf : ∀ v lb pos, .numVarInf v lb pos ∈ log → lb - e ≤ x v ∧ pos = true
  rows : ∀ r lo hi, .constraint r lo hi ∈ log →
    lo - e ≤ Cmd.value (Cmd.coefs log r) x ∧ Cmd.value (Cmd.coefs log r) x ≤ hi + e

/-- besides, no answer without error has an objective better by more than `gap` -/
def NearOptimal (e gap : ℚ) (log : List Cmd) (x : Var → ℚ) : Prop :=
  NearAnswer e log x ∧ ∀ y, Cmd.Feasible log y → Cmd.objective log x ≤ Cmd.objective log y + gap

/-- all flows and levels within the limits of the study, give or take `e` -/
structure NearBounds (e : ℚ) (s : Study) (k : ℕ) (D : Dispatch) : Prop where
  consumptions : ∀ g d n, HasNode s g d n → ∀ i c, n.consumptions[i]? = some c → ∀ t < s.horizon,
    NearLimits e (D.lol g d i t) (val c.quantity k t)
  productions : ∀ g d n, HasNode s g d n → ∀ i c, n.productions[i]? = some c → ∀ t < s.horizon,
    NearLimits e (D.prod g d i t) (val c.quantity k t)
  storages : ∀ g d n, HasNode s g d n → ∀ i c, n.storages[i]? = some c → ∀ t < s.horizon,
    NearLimits e (D.cap g d i t) (val c.capacity k t) ∧ NearLimits e (D.fin g d i t) (val c.flowIn k t) ∧
      NearLimits e (D.fout g d i t) (val c.flowOut k t)
  links : ∀ g d n, HasNode s g d n → ∀ i c, n.links[i]? = some c → ∀ t < s.horizon,
    NearLimits e (D.link g d i t) (val c.quantity k t)
  convSrc : ∀ p ∈ s.converters, ∀ g d r, ([g, d], r) ∈ p.2.srcRatios → ∀ t < s.horizon,
    -e ≤ D.convSrc p.1 (g, d) t ∧
      (val r k t ≠ 0 → D.convSrc p.1 (g, d) t ≤ fval p.2.max k t / val r k t + e)
  convDest : ∀ p ∈ s.converters, ∀ t < s.horizon, NearLimits e (D.convDest p.1 t) (fval p.2.max k t)

/-- a dispatch that is feasible, give or take `e` -/
structure NearFeasible (e : ℚ) (s : Study) (k : ℕ) (D : Dispatch) : Prop where
  bounds : NearBounds e s k D
  balanced : ∀ g d n, HasNode s g d n → ∀ t < s.horizon, Near e (incoming s D g d n t) (outgoing s k D g d n t)
  storages : ∀ g d n, HasNode s g d n → ∀ i c, n.storages[i]? = some c → ∀ t < s.horizon,
    Near e (D.cap g d i t) (levelBefore D g d i c.initCapacity t + val c.eff k t * D.fin g d i t - D.fout g d i t)
  ratios : ∀ p ∈ s.converters, ∀ g d r, ([g, d], r) ∈ p.2.srcRatios → ∀ t < s.horizon,
    Near e (D.convSrc p.1 (g, d) t * val r k t) (D.convDest p.1 t)

/-- level a storage would have after time `t`, from its initial capacity and its flows only -/
def levelFrom (k : ℕ) (D : Dispatch) (g d : String) (i : ℕ) (c : Storage) (t : ℕ) : ℚ :=
  c.initCapacity + sumL (List.range (t + 1)) fun t' => val c.eff k t' * D.fin g d i t' - D.fout g d i t'

variable (s : Study) (k : ℕ) (P : Prices)

/-- what one unit of error everywhere is worth at a node, at most: the price of energy for its balance, the price of stored energy for
the level of storages, and for each flow what it loses or earns at these prices -/
def nodeSlack (t : ℕ) (g d : String) (n : InputNode) : ℚ :=
  |P.node g d t| +
  sumI n.consumptions (fun c _ => |val c.cost k t - P.node g d t|) +
  sumI n.productions (fun c _ => |val c.cost k t - P.node g d t|) +
  sumI n.links (fun c _ => |val c.cost k t + P.node g d t - P.node g c.dest t|) +
  sumI n.storages (fun c i => |P.stored g d i t| +
    |val c.cost k t + P.stored g d i t - P.storedNext s.horizon g d i t| +
    |P.node g d t - val c.eff k t * P.stored g d i t| +
    |P.stored g d i t - P.node g d t|)

/-- the same for a converter -/
def convSlack (t : ℕ) (p : String × Converter) : ℚ :=
  |fval p.2.cost k t + (sumL p.2.srcRatios fun q => P.used p.1 (srcPair q.1) t) - P.node p.2.destNetwork p.2.destNode t| +
  sumL p.2.srcRatios fun q => |P.used p.1 (srcPair q.1) t| +
    |P.node (srcPair q.1).1 (srcPair q.1).2 t - val q.2 k t * P.used p.1 (srcPair q.1) t|

/-- what one unit of error everywhere is worth, at most -/
def slackWorth : ℚ :=
  sumL (List.range s.horizon) fun t =>
    (sumL s.networks fun p => sumL p.2.nodes fun q => nodeSlack s k P t p.1 q.1 q.2) + sumL s.converters (convSlack k P t)

end Hadar.Spec
