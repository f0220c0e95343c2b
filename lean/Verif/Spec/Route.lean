import Verif.Spec.Prices

/-!
# The ways energy takes
-/

namespace Hadar.Spec

open Hadar

/-- energy goes from node `d` to node `e` of network `g` at time `t`, by links that all carry some; `c` is the sum of their costs -/
inductive Flows (s : Study) (k : ℕ) (D : Dispatch) (g : String) (t : ℕ) : String → String → ℚ → Prop
  | here (d) : Flows s k D g t d d 0
  | along {d e n i l c} : HasNode s g d n → n.links[i]? = some l → 0 < D.link g d i t →
      Flows s k D g t l.dest e c → Flows s k D g t d e (val l.cost k t + c)

/-- energy could go from node `d` to node `e`, by links that can all carry more -/
inductive Spare (s : Study) (k : ℕ) (D : Dispatch) (g : String) (t : ℕ) : String → String → ℚ → Prop
  | here (d) : Spare s k D g t d d 0
  | along {d e n i l c} : HasNode s g d n → n.links[i]? = some l → D.link g d i t < val l.quantity k t →
      Spare s k D g t l.dest e c → Spare s k D g t d e (val l.cost k t + c)

end Hadar.Spec
