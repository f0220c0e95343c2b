import Verif.Spec.Adequacy
import Verif.Proofs.Window
import Verif.Proofs.Energy

/-!
# Bounds on what a study costs (helper lemmas for C91)
-/

namespace Hadar

open Spec

variable {s : Study} {k : ℕ} {D : Dispatch} {t : ℕ}

theorem cost_nonneg (hc : CostsNonneg s k) (hf : CodeFeasible s k D) : 0 ≤ cost s k D := by
  rw [cost_steps]
  exact sumL_nonneg_of _ _ fun t ht => stepCost_nonneg hc hf (List.mem_range.mp ht)

/-- a step costs at least its loss of load -/
theorem unservedCost_le (hc : CostsNonneg s k) (hf : CodeFeasible s k D) (ht : t < s.horizon) :
    unservedCost s k D t ≤ stepCost s k D t := by
  have h2 : 0 ≤ sumL s.converters fun p => fval p.2.cost k t * D.convDest p.1 t :=
    sumL_nonneg_of _ _ fun p hp => mul_nonneg (hc.converters p hp t ht) (hf.bounds.convDest p hp t ht).1
  have h1 : unservedCost s k D t ≤ sumL s.networks fun p => sumL p.2.nodes fun q => nodeCost k D p.1 q.1 q.2 t := by
    refine sumL_le fun p hp => sumL_le fun q hq => ?_
    have hn : HasNode s p.1 q.1 q.2 := ⟨p.2, hp, hq⟩
    have e1 : 0 ≤ sumI q.2.productions fun c i => val c.cost k t * D.prod p.1 q.1 i t := sumI_nonneg_of _ _ fun i x hx =>
      mul_nonneg (hc.productions _ _ _ hn x (List.mem_of_getElem? hx) t ht) (hf.bounds.productions _ _ _ hn i x hx t ht).1
    have e2 : 0 ≤ sumI q.2.storages fun c i => val c.cost k t * D.cap p.1 q.1 i t := sumI_nonneg_of _ _ fun i x hx =>
      mul_nonneg (hc.storages _ _ _ hn x (List.mem_of_getElem? hx) t ht) (hf.bounds.storages _ _ _ hn i x hx t ht).1.1
    have e3 : 0 ≤ sumI q.2.links fun c i => val c.cost k t * D.link p.1 q.1 i t := sumI_nonneg_of _ _ fun i x hx =>
      mul_nonneg (hc.links _ _ _ hn x (List.mem_of_getElem? hx) t ht) (hf.bounds.links _ _ _ hn i x hx t ht).1
    unfold nodeCost
    linarith
  unfold stepCost
  linarith

theorem unserved_le_cost {v : ℚ} (hv : LossCosts s k v) (hf : CodeFeasible s k D) (ht : t < s.horizon) :
    v * unserved s D t ≤ unservedCost s k D t := by
  unfold unserved unservedCost total
  rw [← sumL_mul]
  refine sumL_le fun p hp => ?_
  rw [← sumL_mul]
  refine sumL_le fun q hq => ?_
  rw [← sumI_mul]
  have hn : HasNode s p.1 q.1 q.2 := ⟨p.2, hp, hq⟩
  refine sumI_le fun c i hc => ?_
  exact mul_le_mul_of_nonneg_right (hv _ _ _ hn c (List.mem_of_getElem? hc) t ht) (hf.bounds.consumptions _ _ _ hn i c hc t ht).1

theorem unserved_nonneg (hf : CodeFeasible s k D) (ht : t < s.horizon) : 0 ≤ unserved s D t :=
  sumL_nonneg_of _ _ fun p hp => sumL_nonneg_of _ _ fun q hq => sumI_nonneg_of _ _ fun i c hc =>
    (hf.bounds.consumptions _ _ _ (⟨p.2, hp, hq⟩ : HasNode s p.1 q.1 q.2) i c hc t ht).1

theorem idle_cost (hi : StudyInv s) : cost s k (idle s k) = overTime s (idleStep s k) := by
  rw [cost_steps]
  refine sumL_congr fun t ht => ?_
  unfold stepCost
  have e : (sumL s.converters fun p => fval p.2.cost k t * (idle s k).convDest p.1 t) = 0 := by simp [idle, sumL_const0]
  rw [e, add_zero]
  refine sumL_congr fun p hp => sumL_congr fun q hq => ?_
  have hn : HasNode s p.1 q.1 q.2 := ⟨p.2, hp, hq⟩
  unfold nodeCost
  have e1 : (sumI q.2.consumptions fun c i => val c.cost k t * (idle s k).lol p.1 q.1 i t) =
      sumI q.2.consumptions fun c _ => val c.cost k t * val c.quantity k t := by
    apply sumI_congr
    intro c i hc
    simp [idle, inNode_eq hi hn, hc]
  have e2 : (sumI q.2.storages fun c i => val c.cost k t * (idle s k).cap p.1 q.1 i t) =
      sumI q.2.storages fun c _ => val c.cost k t * c.initCapacity := by
    apply sumI_congr
    intro c i hc
    simp [idle, inNode_eq hi hn, hc]
  rw [e1, e2]
  simp [idle, sumI_zero]

end Hadar
