import Verif.Spec.Tolerance
import Verif.Spec.Energy
import Verif.Spec.Viewer

/-!
# Accounts and charts of results with small errors (independent of the code)
-/

namespace Hadar.Spec

open Hadar

/-- number of nodes -/
def nodeNumber (s : Study) : ℚ := total s fun _ _ _ => 1

/-- number of storages -/
def storageNumber (s : Study) : ℚ := total s fun _ _ n => sumI n.storages fun _ _ => 1

/-- C143: candles that follow one another from the initial capacity, the candle of time `t` closing within `(t + 1) e` of the recorded level
and within `(t + 2) e` of the limits of the storage -/
structure NearCandles (e : ℚ) (h : ℕ) (init : ℚ) (recorded limit : ℕ → ℚ) (opens closes : List ℚ) : Prop where
  numOpens : opens.length = h
  numCloses : closes.length = h
  first : 0 < h → opens[0]? = some init
  next : ∀ t, t + 1 < h → opens[t + 1]? = closes[t]?
  close : ∀ t < h, ∃ x, closes[t]? = some x ∧ Near ((t + 1) * e) x (recorded t) ∧ NearLimits ((t + 2) * e) x (limit t)

end Hadar.Spec
