import Verif.Spec.Prices

/-!
# When storages are filled and emptied (independent of the code)
-/

namespace Hadar.Spec

open Hadar

/-- one more unit of energy at a node would save `v`: there, or carried elsewhere in the network -/
def Helps (s : Study) (k : ℕ) (D : Dispatch) (g d : String) (t : ℕ) (v : ℚ) : Prop :=
  ∃ e c u, Reaches s k D g t d e c ∧ WouldSave s k D g e t u ∧ v = u - c

/-- one more unit of energy at a node can be had for `u`: produced there, or elsewhere in the network and carried -/
def Available (s : Study) (k : ℕ) (D : Dispatch) (g d : String) (t : ℕ) (u : ℚ) : Prop :=
  ∃ e c w, CanProduce s k D g e t w ∧ Reaches s k D g t e d c ∧ u = w + c

/-- a storage holds energy at the end of the `m` time steps from `t` on -/
def Keeps (D : Dispatch) (g d : String) (i t m : ℕ) : Prop := ∀ j < m, 0 < D.cap g d i (t + j)

/-- a storage could hold more at the end of the `m` time steps from `t` on -/
def HasRoom (k : ℕ) (D : Dispatch) (g d : String) (i : ℕ) (c : Storage) (t m : ℕ) : Prop :=
  ∀ j < m, D.cap g d i (t + j) < val c.capacity k (t + j)

end Hadar.Spec
