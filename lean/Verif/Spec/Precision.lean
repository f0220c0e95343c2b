import Verif.Spec.Tolerance

/-!
# Data known up to an error (independent of the code)

Costs and quantities come from measures and forecasts: here is what errors on them can change to the cost of a study.
-/

namespace Hadar.Spec

open Hadar

variable (s : Study) (k : ℕ) (P : Prices)

/-- all that a cost can be charged on at a node: what can be cut, produced, sent and stored -/
def nodeVolume (t : ℕ) (n : InputNode) : ℚ :=
  sumI n.consumptions (fun c _ => val c.quantity k t) + sumI n.productions (fun c _ => val c.quantity k t) +
  sumI n.links (fun c _ => val c.quantity k t) + sumI n.storages (fun c _ => val c.capacity k t)

/-- the same in the whole study, converters included, at all times together -/
def dataVolume : ℚ :=
  sumL (List.range s.horizon) fun t =>
    (sumL s.networks fun p => sumL p.2.nodes fun q => nodeVolume k t q.2) + sumL s.converters fun p => fval p.2.max k t

/-- what one unit more of every quantity of a node is worth at given prices, gains and losses counted alike -/
def nodeUnits (t : ℕ) (g d : String) (n : InputNode) : ℚ :=
  sumI n.consumptions (fun c _ => |min (P.node g d t) (val c.cost k t)|) +
  sumI n.productions (fun c _ => max 0 (P.node g d t - val c.cost k t)) +
  sumI n.links (fun c _ => max 0 (P.node g c.dest t - P.node g d t - val c.cost k t)) +
  sumI n.storages (fun c i => max 0 (P.storedNext s.horizon g d i t - P.stored g d i t - val c.cost k t)) +
  sumI n.storages (fun c i => max 0 (val c.eff k t * P.stored g d i t - P.node g d t)) +
  sumI n.storages (fun _ i => max 0 (P.node g d t - P.stored g d i t))

/-- the same for the maximum of a converter -/
def convUnits (t : ℕ) (p : String × Converter) : ℚ :=
  max 0 (P.node p.2.destNetwork p.2.destNode t - (sumL p.2.srcRatios fun q => P.used p.1 (srcPair q.1) t) - fval p.2.cost k t) +
  sumL p.2.srcRatios fun q => max 0 (val q.2 k t * P.used p.1 (srcPair q.1) t - P.node (srcPair q.1).1 (srcPair q.1).2 t) *
    |(val q.2 k t)⁻¹|

/-- what one unit more of every quantity of the study is worth at given prices, levels of storages at first included -/
def unitsWorth : ℚ :=
  (sumL (List.range s.horizon) fun t =>
    (sumL s.networks fun p => sumL p.2.nodes fun q => nodeUnits s k P t p.1 q.1 q.2) + sumL s.converters (convUnits k P t)) +
  if s.horizon = 0 then 0 else sumL s.networks fun p => sumL p.2.nodes fun q => sumI q.2.storages fun _ i => |P.stored p.1 q.1 i 0|

/-- C129: same elements, ratios and efficiencies; costs differ by at most `e`, quantities, limits and first levels by at most `f` -/
def Measured (e f : ℚ) (s : Study) (k : ℕ) (s' : Study) (k' : ℕ) : Prop := Compared (Near e) (Near f) (Near f) s k s' k'

instance (e f : ℚ) (s s' : Study) (k k' : ℕ) [h : Decidable (Compared (Near e) (Near f) (Near f) s k s' k')] :
    Decidable (Measured e f s k s' k') := h

end Hadar.Spec
