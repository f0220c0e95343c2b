import Verif.Proofs.LPReady

/-!
# Checking concrete answers of the solver
-/

namespace Hadar

open Spec

/-- `Cmd.Feasible`, call by call -/
def Cmd.check (log : List Cmd) (x : Var → ℚ) : Cmd → Bool
  | .numVar v lb ub => lb ≤ x v && x v ≤ ub
  | .numVarInf v lb pos => lb ≤ x v && pos
  | .constraint r lo hi => lo ≤ value (coefs log r) x && value (coefs log r) x ≤ hi
  | _ => true

theorem Cmd.feasible_of_check {log : List Cmd} {x : Var → ℚ}
    (h : log.all (Cmd.check log x) = true) : Cmd.Feasible log x := by
  rw [List.all_eq_true] at h
  refine ⟨⟨?_, ?_⟩, ?_⟩
  · intro v lb ub hm
    simpa [check] using h _ hm
  · intro v lb pos hm
    simpa [check] using h _ hm
  · intro r lo hi hm
    simpa [check] using h _ hm

/-- the calls for scenario `k` -/
def logOf (s : Study) (k : ℕ) : List Cmd :=
  match buildAll s k with
  | .ok p => p.2
  | .error _ => []

theorem logOf_eq {s : Study} {k : ℕ} {steps : List (LPTimeStep Var)} {log : List Cmd}
    (h : buildAll s k = .ok (steps, log)) : log = logOf s k := by
  unfold logOf; rw [h]

theorem value_ge {log : List Cmd} {y : Var → ℚ} (hy : Cmd.Feasible log y) {r : RowId} {lo hi : ℚ}
    {d : Dict Var ℚ} (hm : Cmd.constraint r lo hi ∈ log) (hd : Cmd.coefs log r = d) :
    lo ≤ Cmd.value d y ∧ Cmd.value d y ≤ hi := by
  have := hy.2 r lo hi hm
  rwa [hd] at this

theorem hasNode_inNode {s : Study} {g d : String}
    (h : ((s.networks.get? g).bind fun net => net.nodes.get? d).isSome = true) :
    HasNode s g d (inNode s g d) := by
  unfold inNode
  cases hg : s.networks.get? g with
  | none => rw [hg] at h; simp at h
  | some net =>
    rw [hg] at h
    simp only [Option.bind_some] at h ⊢
    cases hd : net.nodes.get? d with
    | none => rw [hd] at h; simp at h
    | some n => exact ⟨net, Dict.mem_of_get? hg, Dict.mem_of_get? hd⟩

end Hadar
