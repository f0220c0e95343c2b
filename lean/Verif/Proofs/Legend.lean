import Verif.Spec.Legend
import Verif.Proofs.ViewerStack

/-! # Lemmas on names and colours of traces -/

namespace Hadar

open Hadar.Spec

theorem filter_bands (c : Viewer.StackChart) :
    (Viewer.stackTraces c).filter isBand = c.areas.zipIdx.map Viewer.bandTrace := by
  unfold Viewer.stackTraces
  rw [List.filter_append, List.filter_eq_self.mpr, List.filter_eq_nil_iff.mpr, List.append_nil]
  · intro x hx
    obtain ⟨p, -, rfl⟩ := List.mem_map.mp hx
    simp [isBand, Viewer.lineTrace]
  · intro x hx
    obtain ⟨p, -, rfl⟩ := List.mem_map.mp hx
    simp [isBand, Viewer.bandTrace]

theorem filter_lines (c : Viewer.StackChart) :
    (Viewer.stackTraces c).filter (!isBand ·) = c.lines.zipIdx.map Viewer.lineTrace := by
  unfold Viewer.stackTraces
  rw [List.filter_append, List.filter_eq_nil_iff.mpr, List.filter_eq_self.mpr, List.nil_append]
  · intro x hx
    obtain ⟨p, -, rfl⟩ := List.mem_map.mp hx
    simp [isBand, Viewer.lineTrace]
  · intro x hx
    obtain ⟨p, -, rfl⟩ := List.mem_map.mp hx
    simp [isBand, Viewer.bandTrace]

theorem bandTrace_names (l : List (Cell × List ℚ)) :
    (l.zipIdx.map Viewer.bandTrace).map (·.name) = l.map Prod.fst := by
  rw [List.map_map]
  have : ((fun x : Viewer.Trace => x.name) ∘ Viewer.bandTrace) = Prod.fst ∘ Prod.fst := rfl
  rw [this, ← List.map_map, List.zipIdx_map_fst]

theorem lineTrace_names (l : List (Cell × List ℚ)) :
    (l.zipIdx.map Viewer.lineTrace).map (·.name) = l.map Prod.fst := by
  rw [List.map_map]
  have : ((fun x : Viewer.Trace => x.name) ∘ Viewer.lineTrace) = Prod.fst ∘ Prod.fst := rfl
  rw [this, ← List.map_map, List.zipIdx_map_fst]

theorem lineColors_inj : ∀ i < 10, ∀ j < 10, Viewer.lineColors[i]? = Viewer.lineColors[j]? → i = j := by
  decide +kernel

theorem lineColors_some : ∀ i < 10, Viewer.lineColors[i]?.isSome = true := by decide +kernel

theorem ranked_names {s : Study} {elements : List (String × (ℕ → ℚ) × (ℕ → ℚ))} {bands : List (Cell × List ℚ)}
    (h : RankedOf s elements bands) : (bands.map Prod.fst).Perm ((elements.map Prod.fst).map Cell.str) := by
  obtain ⟨o, h1, rfl, -⟩ := h
  rw [List.map_map, List.map_map]
  exact h1.map _

theorem bandsOf_names {s : Study} {elements : List (String × (ℕ → ℚ))} {bands : List (Cell × List ℚ)}
    (h : BandsOf s elements bands) : (bands.map Prod.fst).Perm ((elements.map Prod.fst).map Cell.str) := by
  have := h.map Prod.fst
  rwa [List.map_map, show (Prod.fst ∘ fun e : String × (ℕ → ℚ) => (Cell.str e.1, over s e.2)) =
    Cell.str ∘ Prod.fst from rfl, ← List.map_map] at this

theorem zipIdx_names {α β : Type} (l : List α) (f : α → String) (g : α × ℕ → β) :
    (l.zipIdx.map fun p => (f p.1, g p)).map Prod.fst = l.map f := by
  rw [List.map_map]
  have : (Prod.fst ∘ fun p : α × ℕ => (f p.1, g p)) = f ∘ Prod.fst := rfl
  rw [this, ← List.map_map, List.zipIdx_map_fst]

/-- names drawn, from the names of the parts -/
theorem names_drawn {P O A I drawn : List (Cell × List ℚ)} {h : ℕ} {a b c : List String}
    (hp : Piled h (P ++ O ++ A ++ I) drawn) (h1 : (P.map Prod.fst).Perm (a.map Cell.str))
    (h2 : (O.map Prod.fst).Perm (b.map Cell.str)) (h3 : (A.map Prod.fst).Perm (c.map Cell.str)) :
    (drawn.map Prod.fst).Perm ((a ++ b ++ c).map Cell.str ++ I.map Prod.fst) := by
  rw [hp.1]
  simp only [List.map_append]
  exact ((h1.append h2).append h3).append (List.Perm.refl _)

theorem cut_nat (k : ℕ) : Viewer.cut (k : ℚ) = k := by
  unfold Viewer.cut
  rw [if_pos (by positivity)]
  exact Int.floor_natCast (R := ℚ) k

end Hadar
