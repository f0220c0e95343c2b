import Verif.Spec.Estimate
import Verif.Proofs.Fair
import Verif.Proofs.Like

/-!
# Means over scenarios drawn fairly
-/

namespace Hadar

open Spec

variable {Ω : Type} [Fintype Ω] {w : Ω → ℚ} {n nb : ℕ} {I : Ω → List ℤ}

/-- the number a row of one number holds -/
def rowNumber (row : List Val) : ℚ := (row.head?.bind id).getD 0

theorem average_numbers (n : ℕ) (F : ℕ → ℚ) (φ : ℚ → ℚ) :
    average (fun row => φ (rowNumber row)) ((List.range n).map fun i => [some (F i)]) = scenarioMean n fun i => φ (F i) := by
  unfold average scenarioMean
  simp only [List.map_map, List.length_map, List.length_range]
  congr 1

/-- numbers picked by indexes -/
theorem picked_numbers {ix : List ℤ} (hix : ∀ z ∈ ix, 0 ≤ z ∧ z < n) (F : ℕ → ℚ) :
    Picked ((List.range n).map fun i => [some (F i)]) ix (ix.map fun z => [some (F z.toNat)]) := by
  unfold Picked
  induction ix with
  | nil => exact .nil
  | cons z ix ih =>
    refine .cons ⟨z.toNat, ?_, ?_⟩ (ih fun y hy => hix y (List.mem_cons_of_mem _ hy))
    · have := (hix z (List.mem_cons_self)).1; omega
    · have := hix z (List.mem_cons_self)
      rw [List.getElem?_map, List.getElem?_range (by omega)]
      rfl

theorem average_picked (ix : List ℤ) (F : ℕ → ℚ) {G : ℕ → ℚ} (hG : ∀ k i : ℕ, ix[k]? = some (i : ℤ) → G k = F i)
    (h0 : ∀ z ∈ ix, 0 ≤ z) : average rowNumber (ix.map fun z => [some (F z.toNat)]) = scenarioMean ix.length G := by
  unfold average scenarioMean
  simp only [List.map_map, List.length_map]
  congr 1
  induction ix generalizing G with
  | nil => rfl
  | cons z ix ih =>
    rw [List.map_cons, List.sum_cons, List.length_cons, Finset.sum_range_succ',
      ih (G := fun k => G (k + 1)) (fun k i h => hG (k + 1) i h) fun y hy => h0 y (List.mem_cons_of_mem _ hy), add_comm]
    have := h0 z List.mem_cons_self
    rw [hG 0 z.toNat (by simp; omega)]
    rfl

variable {F : ℕ → ℚ} {G : Ω → ℕ → ℚ}

theorem drawn_mean (h : FairIndexes w n nb I) (hn : 0 < n) (hnb : 0 < nb) (hG : ∀ ω k i, (I ω)[k]? = some ((i : ℕ) : ℤ) → G ω k = F i) :
    mean w (fun ω => scenarioMean nb (G ω)) = scenarioMean n F ∧
    mean w (fun ω => (scenarioMean nb (G ω) - scenarioMean n F) ^ 2) = scenarioSpread n F / nb := by
  have hd : ((List.range n).map fun i => [some (F i)]) ≠ [] := by
    intro e
    have := congrArg List.length e
    simp at this
    omega
  have hl : ((List.range n).map fun i => [some (F i)]).length = n := by simp
  have h' : FairIndexes w ((List.range n).map fun i => [some (F i)]).length nb I := by rw [hl]; exact h
  have hp := fun ω => picked_numbers (h.inRange ω).2 F
  have e1 : ∀ ω, average rowNumber ((I ω).map fun z => [some (F z.toNat)]) = scenarioMean nb (G ω) := by
    intro ω
    rw [average_picked (I ω) F (hG ω) fun z hz => ((h.inRange ω).2 z hz).1, (h.inRange ω).1]
  have e2 : average rowNumber ((List.range n).map fun i => [some (F i)]) = scenarioMean n F := average_numbers n F id
  have e3 : spread rowNumber ((List.range n).map fun i => [some (F i)]) = scenarioSpread n F := by
    unfold spread scenarioSpread
    rw [e2]
    exact average_numbers n F fun x => (x - scenarioMean n F) ^ 2
  have a1 := fair_average h' hp hd hnb rowNumber
  have a2 := fair_spread h' hp hd hnb rowNumber
  rw [e2] at a1 a2
  rw [e3] at a2
  refine ⟨?_, ?_⟩
  · rw [← a1]; congr 1; funext ω; exact (e1 ω).symm
  · rw [← a2]; congr 1; funext ω; rw [e1 ω]

end Hadar
