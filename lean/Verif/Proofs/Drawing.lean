import Mathlib.Analysis.Real.Pi.Bounds
import Verif.Spec.Drawing
import Verif.Proofs.ViewerMap

/-! # Helper lemmas on curves, arrows and axes -/

namespace Hadar.Props

open Hadar Hadar.Spec
open scoped NNReal

/-- what the constant of html.py makes of the factor of the normal law -/
noncomputable def overdraw : ℝ := √(2 * Real.pi) / 1.772454

theorem overdraw_bounds : 1.41421 < overdraw ∧ overdraw < 1.41422 := by
  unfold overdraw
  have h1 := Real.pi_gt_d6
  have h2 := Real.pi_lt_d6
  constructor
  · rw [lt_div_iff₀ (by norm_num)]
    apply Real.lt_sqrt_of_sq_lt
    norm_num at h1 h2 ⊢
    nlinarith
  · rw [div_lt_iff₀ (by norm_num), Real.sqrt_lt' (by norm_num)]
    norm_num at h1 h2 ⊢
    nlinarith

theorem bell_eq {m : ℝ} {v : ℝ≥0} (hv : 0 < v) (x : ℝ) :
    Viewer.bell m (√(v : ℝ)) x = some (overdraw * ProbabilityTheory.gaussianPDFReal m v x) := by
  have hv' : (0 : ℝ) < v := by exact_mod_cast hv
  have ho : √(v : ℝ) ≠ 0 := (Real.sqrt_pos.mpr hv').ne'
  have hs : √(v : ℝ) ^ 2 = v := Real.sq_sqrt hv'.le
  unfold Viewer.bell overdraw
  rw [if_neg ho, ProbabilityTheory.gaussianPDFReal_def]
  simp only [Option.some.injEq]
  have h1 : √(2 * Real.pi * v) = √(2 * Real.pi) * √(v : ℝ) := Real.sqrt_mul (by positivity) _
  have h2 : -0.5 * ((x - m) / √(v : ℝ)) ^ 2 = -(x - m) ^ 2 / (2 * v) := by
    rw [div_pow, hs]
    field_simp
    norm_num
    ring
  have h3 : √(2 * Real.pi) ≠ 0 := (Real.sqrt_pos.mpr (by positivity)).ne'
  rw [h1, h2]
  field_simp

theorem list_sum_sq_eq_zero {l : List ℝ} {f : ℝ → ℝ} (h : (l.map fun x => f x ^ 2).sum = 0) : ∀ x ∈ l, f x = 0 := by
  induction l with
  | nil => simp
  | cons y l ih =>
    have h1 : 0 ≤ (l.map fun x => f x ^ 2).sum := List.sum_nonneg (by
      intro z hz
      obtain ⟨w, _, rfl⟩ := List.mem_map.mp hz
      positivity)
    rw [List.map_cons, List.sum_cons] at h
    have h2 := sq_nonneg (f y)
    intro x hx
    rcases List.mem_cons.mp hx with rfl | hx
    · have : f x ^ 2 = 0 := by linarith
      simpa using this
    · exact ih (by linarith) x hx

/-- variance as the code computes it -/
noncomputable def codeVar (l : List ℝ) : ℝ≥0 :=
  ⟨Viewer.npMean (l.map fun x => |x - Viewer.npMean l| ^ 2), by
    unfold Viewer.npMean
    refine div_nonneg (List.sum_nonneg ?_) (by positivity)
    intro z hz
    obtain ⟨w, _, rfl⟩ := List.mem_map.mp hz
    positivity⟩

theorem npStd_eq (l : List ℝ) : Viewer.npStd l = √(codeVar l : ℝ) := rfl

theorem codeVar_eq_zero {l : List ℝ} (hl : l ≠ []) : codeVar l = 0 ↔ ∀ x ∈ l, x = Viewer.npMean l := by
  have hlen : (l.length : ℝ) ≠ 0 := by
    have := List.length_pos_iff.mpr hl
    positivity
  constructor
  · intro h x hx
    have h1 : (codeVar l : ℝ) = 0 := by rw [h]; rfl
    have h2 : (l.map fun x => |x - Viewer.npMean l| ^ 2).sum / ((l.map fun x => |x - Viewer.npMean l| ^ 2).length : ℝ) = 0 :=
      h1
    rw [List.length_map, div_eq_zero_iff, or_iff_left hlen] at h2
    have h3 := list_sum_sq_eq_zero (f := fun x => |x - Viewer.npMean l|) h2 x hx
    rw [abs_eq_zero] at h3
    linarith
  · intro h
    apply NNReal.coe_injective
    change (l.map fun x => |x - Viewer.npMean l| ^ 2).sum / ((l.map fun x => |x - Viewer.npMean l| ^ 2).length : ℝ) = 0
    have : l.map (fun x => |x - Viewer.npMean l| ^ 2) = l.map fun _ => (0 : ℝ) := by
      refine List.map_congr_left fun x hx => ?_
      rw [h x hx]
      simp
    rw [this]
    simp

theorem codeMoments {values : List ℚ} (hl : values ≠ []) :
    Moments values (Viewer.npMean (values.map fun q : ℚ => (q : ℝ))) (codeVar (values.map fun q : ℚ => (q : ℝ))) := by
  have hlen : (values.length : ℝ) ≠ 0 := by
    have := List.length_pos_iff.mpr hl
    positivity
  constructor
  · unfold Viewer.npMean
    rw [List.length_map, div_mul_cancel₀ _ hlen]
  · change (List.map _ _).sum / ((List.map _ _).length : ℝ) * (values.length : ℝ) = _
    rw [List.length_map, List.length_map, div_mul_cancel₀ _ hlen, List.map_map]
    simp [Function.comp_def, sq_abs]

/-- the mean and variance of values are known -/
theorem moments_unique {values : List ℚ} (hl : values ≠ []) {m m' : ℝ} {v v' : ℝ≥0} (h : Moments values m v)
    (h' : Moments values m' v') : m = m' ∧ v = v' := by
  have hlen : (values.length : ℝ) ≠ 0 := by
    have := List.length_pos_iff.mpr hl
    positivity
  have hm : m = m' := mul_right_cancel₀ hlen (h.mean.trans h'.mean.symm)
  subst hm
  refine ⟨rfl, ?_⟩
  have := mul_right_cancel₀ hlen (h.variance.trans h'.variance.symm)
  exact_mod_cast this

theorem linspace_getElem? {n i : ℕ} {x start stop : ℝ} (h : (Viewer.linspace start stop n)[i]? = some x) :
    x = start + i * ((stop - start) / (n - 1)) := by
  unfold Viewer.linspace at h
  rw [List.getElem?_map, Option.map_eq_some_iff] at h
  obtain ⟨j, hj, rfl⟩ := h
  obtain ⟨h1, h2⟩ := List.getElem?_eq_some_iff.mp hj
  simp only [List.getElem_range] at h2
  rw [h2]

/-- what a gaussian chart draws -/
theorem gaussianDrawing_of {ι : Type} {l : List ι} (hl : l ≠ []) (value margin : ι → ℚ) :
    ∃ d, Viewer.gaussianDrawing (l.map margin) (l.map value) = .ok d ∧
      d.green.map Prod.fst = ((l.filter fun i => decide (0 ≤ margin i)).map fun i => (value i : ℝ)) ∧
      d.red.map Prod.fst = ((l.filter fun i => decide (margin i < 0)).map fun i => (value i : ℝ)) ∧
      CurvePlaces (l.map value) d ∧
      ∀ p ∈ d.curve ++ d.green ++ d.red, p.2 = Viewer.bell (Viewer.npMean ((l.map value).map fun q : ℚ => (q : ℝ)))
        (√(codeVar ((l.map value).map fun q : ℚ => (q : ℝ)) : ℝ)) p.1 := by
  have hne : l.map value ≠ [] := by simpa using hl
  obtain ⟨hi, m1, m2, m3⟩ := pyMax_ok hne
  obtain ⟨lo, l1, _, _⟩ := pyMin_ok hne
  obtain ⟨c, hc, hc1, hc2⟩ := gaussian_of hl value margin
  unfold Viewer.gaussianDrawing
  simp only [m1, l1, hc, bind, Except.bind, pure, Except.pure]
  refine ⟨_, rfl, ?_, ?_, ?_, ?_⟩
  · simp [hc1, Function.comp_def]
  · simp [hc2, Function.comp_def]
  · refine ⟨by simp [Viewer.linspace], hi, m2, m3, ?_⟩
    intro i p hp
    rw [List.getElem?_map, Option.map_eq_some_iff] at hp
    obtain ⟨x, hx, rfl⟩ := hp
    have := linspace_getElem? hx
    simp only
    rw [this]
    push_cast
    ring
  · intro p hp
    simp only [List.mem_append, List.mem_map] at hp
    rcases hp with (⟨x, _, rfl⟩ | ⟨x, _, rfl⟩) | ⟨x, _, rfl⟩ <;> rfl

theorem mapWith_bind {β γ : Type} (draw : Dict String ℚ → Dict (Cell × Cell) ℚ → ℚ → Except PyErr β)
    (h : β → Except PyErr γ) (a : Analyzer) (g : String) (t k : ℤ) (limit : Option ℚ) :
    Viewer.mapWith (fun n ar l => do let c ← draw n ar l; h c) a g t k limit =
      (do let c ← Viewer.mapWith draw a g t k limit; h c) := by
  unfold Viewer.mapWith
  cases limit <;> simp only [bind_assoc, pure_bind]

theorem arrowOf_from (S E : ℚ × ℚ) (q l : ℚ) : ArrowFrom S E (Viewer.arrowOf S E q l) := by
  unfold Viewer.arrowOf
  constructor <;> simp only [Prod.fst_sub, Prod.snd_sub, Prod.fst_add, Prod.snd_add]
  · constructor <;> ring
  · constructor <;> ring
  · ring
  · ring

end Hadar.Props
