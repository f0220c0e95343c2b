import Verif.Proofs.Window

/-!
# Time steps with the same data: lemmas
-/

namespace Hadar

open Spec

variable {s s' : Study} {k k' t t' u : ℕ} {D E : Dispatch}

theorem patch_here : AgreeAt E t' (D.patch t E t') t := by
  constructor <;> intros <;> simp [Dispatch.patch]

theorem patch_else (h : u ≠ t) : AgreeAt D u (D.patch t E t') u := by
  constructor <;> intros <;> simp [Dispatch.patch, h]

theorem SameStep.refl (s : Study) (k t : ℕ) : SameStep s k t s k t where
  networks := List.forall₂_same.mpr fun _ _ => ⟨rfl, List.forall₂_same.mpr fun _ _ => ⟨rfl,
    ⟨List.forall₂_same.mpr fun _ _ => ⟨rfl, rfl⟩, List.forall₂_same.mpr fun _ _ => ⟨rfl, rfl⟩,
      List.forall₂_same.mpr fun _ _ => ⟨rfl, rfl, rfl, rfl, rfl⟩, List.forall₂_same.mpr fun _ _ => ⟨rfl, rfl, rfl⟩⟩⟩⟩
  converters := List.forall₂_same.mpr fun _ _ => ⟨rfl, ⟨List.forall₂_same.mpr fun _ _ => ⟨rfl, rfl⟩, rfl, rfl, rfl, rfl⟩⟩

/-- without storages, one step can be taken from elsewhere -/
theorem patch_feasible (hno : ∀ g d n, HasNode s g d n → n.storages = []) (h : SameStep s k t s' k' t') (ht' : t' < s'.horizon)
    (hD : CodeFeasible s k D) (hE : CodeFeasible s' k' E) : CodeFeasible s k (D.patch t E t') := by
  rw [codeFeasible_steps] at hD hE ⊢
  intro u hu
  have hB : ∀ {B : String → String → Storage → ℚ} {s₂ : Study} g d n n', HasNode s₂ g d n → HasNode s g d n' → ∀ (c c' : Storage),
      n.storages[0]? = some c → n'.storages[0]? = some c' → B g d c = levelsBefore (D.patch t E t') u g d c' := by
    intro B s₂ g d n n' _ hn' c c' _ hc'
    rw [hno g d n' hn'] at hc'
    cases hc'
  by_cases e : u = t
  · subst e
    exact (hE t' ht').transport h.symm patch_here hB
  · exact (hD u hu).transport (SameStep.refl s k u) (patch_else e) hB

theorem patch_cost (h : SameStep s k t s' k' t') (ht : t < s.horizon) :
    cost s k (D.patch t E t') = cost s k D + (stepCost s' k' E t' - stepCost s k D t) := by
  rw [cost_steps, cost_steps]
  apply sumL_bump List.nodup_range (List.mem_range.mpr ht)
  · rw [← h.symm.stepCost patch_here]
    ring
  · intro u _ hne
    exact ((SameStep.refl s k u).stepCost (patch_else hne)).symm

/-- without storages, no step of a least cost dispatch costs more than a step with the same data elsewhere -/
theorem step_le (hno : ∀ g d n, HasNode s g d n → n.storages = []) (h : SameStep s k t s' k' t') (ht : t < s.horizon)
    (ht' : t' < s'.horizon) (hD : CodeFeasible s k D) (hleast : ∀ F, CodeFeasible s k F → cost s k D ≤ cost s k F)
    (hE : CodeFeasible s' k' E) : stepCost s k D t ≤ stepCost s' k' E t' := by
  have h1 := hleast _ (patch_feasible hno h ht' hD hE)
  rw [patch_cost h ht] at h1
  linarith

theorem sumL_repeated (f : ℕ → ℚ) {h : ℕ} (hpos : 0 < h) (n : ℕ) :
    (sumL (List.range (n * h)) fun t => f (t % h)) = n * sumL (List.range h) f := by
  induction n with
  | zero => simp [sumL]
  | succ n ih =>
    have e : sumL (List.range ((n + 1) * h)) (fun t => f (t % h)) =
        sumL (List.range (n * h)) (fun t => f (t % h)) + sumL (List.range h) f := by
      rw [Nat.succ_mul, List.range_add]
      unfold sumL
      rw [List.map_append, List.sum_append, List.map_map]
      congr 2
      apply List.map_congr_left
      intro t ht
      have ht : t < h := by simpa using ht
      simp only [Function.comp_apply]
      rw [Nat.mul_comm n h, Nat.mul_add_mod, Nat.mod_eq_of_lt ht]
    rw [e, ih]
    push_cast
    ring

end Hadar
