import Verif.Spec.Prices

/-!
# Storages that fill and empty at the same time
-/

namespace Hadar.Spec

open Hadar

/-- the `i`-th storage of a node fills and empties at time `t` -/
def AtOnce (D : Dispatch) (g d : String) (i t : ℕ) : Prop := 0 < D.fin g d i t ∧ 0 < D.fout g d i t

/-- where `w` says so, what a storage takes in and gives back at once is taken off both flows -/
def Dispatch.netted (w : String → String → ℕ → ℕ → Bool) (D : Dispatch) : Dispatch :=
  { D with
    fin := fun g d i t => D.fin g d i t - if w g d i t then min (D.fin g d i t) (D.fout g d i t) else 0
    fout := fun g d i t => D.fout g d i t - if w g d i t then min (D.fin g d i t) (D.fout g d i t) else 0 }

/-- `w` marks storages that lose nothing -/
def Lossless (w : String → String → ℕ → ℕ → Bool) (s : Study) (k : ℕ) : Prop :=
  ∀ g d n, HasNode s g d n → ∀ i c, n.storages[i]? = some c → ∀ t < s.horizon, w g d i t = true → val c.eff k t = 1

end Hadar.Spec
