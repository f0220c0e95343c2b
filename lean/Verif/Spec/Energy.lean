import Verif.Spec.Prices

/-!
# Accounts of energy (independent of the code)

What the whole study gets and gives, all nodes together.
-/

namespace Hadar.Spec

open Hadar

/-- sum over all nodes of a study, with their network and their name -/
def total (s : Study) (f : String → String → InputNode → ℚ) : ℚ :=
  sumL s.networks fun p => sumL p.2.nodes fun q => f p.1 q.1 q.2

/-- sum over all time steps of a study -/
def overTime (s : Study) (f : ℕ → ℚ) : ℚ := sumL (List.range s.horizon) f

/-- what consumptions get at time `t` -/
def served (s : Study) (k : ℕ) (D : Dispatch) (t : ℕ) : ℚ :=
  total s fun g d n => sumI n.consumptions fun c i => val c.quantity k t - D.lol g d i t

/-- what productions give -/
def produced (s : Study) (D : Dispatch) (t : ℕ) : ℚ :=
  total s fun g d n => sumI n.productions fun _ i => D.prod g d i t

/-- what storages give -/
def released (s : Study) (D : Dispatch) (t : ℕ) : ℚ :=
  total s fun g d n => sumI n.storages fun _ i => D.fout g d i t

/-- what storages get -/
def put (s : Study) (D : Dispatch) (t : ℕ) : ℚ :=
  total s fun g d n => sumI n.storages fun _ i => D.fin g d i t

/-- what converters give -/
def converted (s : Study) (D : Dispatch) (t : ℕ) : ℚ := sumL s.converters fun p => D.convDest p.1 t

/-- what converters get, all sources together -/
def used (s : Study) (D : Dispatch) (t : ℕ) : ℚ :=
  sumL s.converters fun p => sumL p.2.srcRatios fun q => D.convSrc p.1 (srcPair q.1) t

/-- what storages hold at first -/
def heldFirst (s : Study) : ℚ := total s fun _ _ n => sumI n.storages fun c _ => c.initCapacity

/-- what storages hold in the end -/
def heldLast (s : Study) (D : Dispatch) : ℚ :=
  total s fun g d n => sumI n.storages fun c i => levelBefore D g d i c.initCapacity s.horizon

/-- what storages lose of what they get -/
def lost (s : Study) (k : ℕ) (D : Dispatch) (t : ℕ) : ℚ :=
  total s fun g d n => sumI n.storages fun c i => (1 - val c.eff k t) * D.fin g d i t

/-- storages give back no more than what they get -/
def NoGain (s : Study) (k : ℕ) : Prop :=
  ∀ g d n, HasNode s g d n → ∀ c ∈ n.storages, ∀ t < s.horizon, val c.eff k t ≤ 1

/-- converters give no more than what they get: for one unit given, what they get from their sources makes at least one unit -/
def ConvertersLose (s : Study) (k : ℕ) : Prop :=
  ∀ p ∈ s.converters, ∀ t < s.horizon, (∀ q ∈ p.2.srcRatios, 0 < val q.2 k t) ∧
    1 ≤ sumL p.2.srcRatios fun q => 1 / val q.2 k t

end Hadar.Spec
