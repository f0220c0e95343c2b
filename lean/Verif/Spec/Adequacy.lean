import Verif.Spec.Energy
import Verif.Spec.Window

/-!
# Loss of load of the whole study
-/

namespace Hadar.Spec

open Hadar

/-- what consumptions do not get at time `t` -/
def unserved (s : Study) (D : Dispatch) (t : ℕ) : ℚ := total s fun g d n => sumI n.consumptions fun _ i => D.lol g d i t

/-- what it costs -/
def unservedCost (s : Study) (k : ℕ) (D : Dispatch) (t : ℕ) : ℚ :=
  total s fun g d n => sumI n.consumptions fun c i => val c.cost k t * D.lol g d i t

/-- the cost of time `t` when nothing is served and storages keep what they hold at first -/
def idleStep (s : Study) (k t : ℕ) : ℚ :=
  total s fun _ _ n => (sumI n.consumptions fun c _ => val c.cost k t * val c.quantity k t) +
    sumI n.storages fun c _ => val c.cost k t * c.initCapacity

/-- losing a unit of load costs at least `v` -/
def LossCosts (s : Study) (k : ℕ) (v : ℚ) : Prop :=
  ∀ g d n, HasNode s g d n → ∀ c ∈ n.consumptions, ∀ t < s.horizon, v ≤ val c.cost k t

end Hadar.Spec
