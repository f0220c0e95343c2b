import Verif.Spec.Tax
import Verif.Spec.Energy

/-!
# Costs are relative

Energy of a node is given another value: whoever produces it or does without it there pays more, whoever carries it away pays less. No
dispatch becomes better than another one.
-/

namespace Hadar.Spec

open Hadar

/-- value of energy by network, node and time -/
abbrev Values := String → String → ℕ → ℚ

/-- C140: what is added to the costs when the energy of each node is worth `v` more:
* for a unit not served and a unit produced, its value;
* for a unit carried, its value where it comes less its value where it goes from;
* for a unit converted, its value where it comes less the value of what it is made of;
* for a unit stored, its value later less its value now; it is worth nothing after the last time step. -/
def raised (s : Study) (k : ℕ) (v : Values) : Element → ℕ → ℚ
  | .load g d _, t => v g d t
  | .prod g d _, t => v g d t
  | .stor g d _, t => (if t + 1 < s.horizon then v g d (t + 1) else 0) - v g d t
  | .link g d i, t => match (inNode s g d).links[i]? with
    | some l => v g l.dest t - v g d t
    | none => 0
  | .conv c, t => match s.converters.get? c with
    | some p => v p.destNetwork p.destNode t -
      sumL p.srcRatios fun q => v (srcPair q.1).1 (srcPair q.1).2 t / val q.2 k t
    | none => 0

/-- where energy gets another value, storages lose nothing and converters can use it -/
structure KeepsValue (s : Study) (k : ℕ) (v : Values) : Prop where
  storages : ∀ g d n, HasNode s g d n → ∀ c ∈ n.storages, ∀ t < s.horizon, v g d t = 0 ∨ val c.eff k t = 1
  converters : ∀ p ∈ s.converters, ∀ q ∈ p.2.srcRatios, ∀ t < s.horizon,
    v (srcPair q.1).1 (srcPair q.1).2 t = 0 ∨ val q.2 k t ≠ 0

/-- C140: the value of all that is asked, less the value of what storages hold at first -/
def gainedValue (s : Study) (k : ℕ) (v : Values) : ℚ :=
  overTime s (fun t => total s fun g d n => v g d t * sumI n.consumptions fun c _ => val c.quantity k t) -
    if 0 < s.horizon then total s fun g d n => v g d 0 * sumI n.storages fun c _ => c.initCapacity else 0

/-- C140: only what is not served and what is produced costs more, by the same amount everywhere at time `t` -/
def onGoods (x : ℕ → ℚ) : Element → ℕ → ℚ
  | .load _ _ _, t => x t
  | .prod _ _ _, t => x t
  | _, _ => 0

/-- all that is asked at time `t` -/
def askedAll (s : Study) (k t : ℕ) : ℚ := total s fun _ _ n => sumI n.consumptions fun c _ => val c.quantity k t

/-- a dispatch of least cost -/
def Least (s : Study) (k : ℕ) (D : Dispatch) : Prop := Feasible s k D ∧ ∀ D', Feasible s k D' → cost s k D ≤ cost s k D'

end Hadar.Spec
