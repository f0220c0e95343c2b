import Verif.Proofs.ViewerStack

/-! # Exchange maps -/

namespace Hadar

open Spec

/-! ### Loops -/

theorem foldlM_flatMap_ok {α β σ : Type} {l : List α} {W : α → List β} {f : σ → α → Except PyErr σ}
    {g : σ → β → Except PyErr σ} (h : ∀ x ∈ l, ∀ st, f st x = (W x).foldlM g st) (st : σ) :
    l.foldlM f st = (l.flatMap W).foldlM g st := by
  induction l generalizing st with
  | nil => rfl
  | cons x xs ih =>
    rw [List.foldlM_cons, List.flatMap_cons, List.foldlM_append, h x (by simp)]
    congr 1
    funext st'
    exact ih (fun y hy => h y (by simp [hy])) st'

theorem foldlM_pure {α σ : Type} {l : List α} {f : σ → α → Except PyErr σ} {g : σ → α → σ}
    (h : ∀ x ∈ l, ∀ st, f st x = .ok (g st x)) (st : σ) : l.foldlM f st = .ok (l.foldl g st) := by
  induction l generalizing st with
  | nil => rfl
  | cons x xs ih =>
    rw [List.foldlM_cons, List.foldl_cons, h x (by simp)]
    exact ih (fun y hy => h y (by simp [hy])) _

/-- one exchange drawn -/
def arrowStep (flow : Cell → Cell → ℚ) (arrows : Dict (Cell × Cell) ℚ) (w : Cell × Cell) : Dict (Cell × Cell) ℚ :=
  if 0 ≤ flow w.1 w.2 - flow w.2 w.1 then arrows.set (w.1, w.2) (flow w.1 w.2 - flow w.2 w.1)
  else arrows.set (w.2, w.1) (-(flow w.1 w.2 - flow w.2 w.1))

theorem Dict.keys_mem_set {K V : Type} [DecidableEq K] {d : Dict K V} {k k' : K} {v : V} :
    k' ∈ (Dict.set d k v).keys ↔ k' = k ∨ k' ∈ d.keys := by
  induction d with
  | nil => simp [Dict.set, Dict.keys]
  | cons p d ih =>
    obtain ⟨k0, v0⟩ := p
    unfold Dict.set
    by_cases h : k0 = k
    · rw [if_pos h]
      simp only [Dict.keys, List.map_cons, List.mem_cons]
      subst h; tauto
    · rw [if_neg h]
      simp only [Dict.keys, List.map_cons, List.mem_cons] at ih ⊢
      rw [ih]; tauto

theorem arrows_fold (flow : Cell → Cell → ℚ) (W : List (Cell × Cell)) :
    (W.foldl (arrowStep flow) []).keys.Nodup ∧
    (∀ p ∈ W.foldl (arrowStep flow) [], p.2 = flow p.1.1 p.1.2 - flow p.1.2 p.1.1 ∧ 0 ≤ p.2 ∧
      (p.1 ∈ W ∨ (p.1.2, p.1.1) ∈ W)) ∧
    ∀ w ∈ W, if 0 ≤ flow w.1 w.2 - flow w.2 w.1 then w ∈ (W.foldl (arrowStep flow) []).keys
      else (w.2, w.1) ∈ (W.foldl (arrowStep flow) []).keys := by
  induction W using List.reverseRec with
  | nil => simp [Dict.keys]
  | append_singleton W w ih =>
    obtain ⟨x, y⟩ := w
    rw [List.foldl_append, List.foldl_cons, List.foldl_nil]
    generalize W.foldl (arrowStep flow) [] = A at ih
    obtain ⟨h1, h2, h3⟩ := ih
    unfold arrowStep
    dsimp only
    split_ifs with he
    · refine ⟨Dict.nodup_set _ _ h1, ?_, ?_⟩
      · intro p hp
        rcases (Dict.mem_set hp).symm with rfl | hp
        · exact ⟨rfl, he, by simp⟩
        · obtain ⟨a1, a2, a3⟩ := h2 p hp
          exact ⟨a1, a2, by rcases a3 with a3 | a3 <;> simp [a3]⟩
      · intro w hw
        simp only [Dict.keys_mem_set]
        rcases List.mem_append.mp hw with hw | hw
        · have := h3 w hw
          split_ifs at this ⊢ <;> simp [this]
        · obtain rfl := List.mem_singleton.mp hw
          rw [if_pos he]; simp
    · refine ⟨Dict.nodup_set _ _ h1, ?_, ?_⟩
      · intro p hp
        rcases (Dict.mem_set hp).symm with rfl | hp
        · refine ⟨by simp, ?_, by simp⟩
          simp only
          linarith [not_le.mp he]
        · obtain ⟨a1, a2, a3⟩ := h2 p hp
          exact ⟨a1, a2, by rcases a3 with a3 | a3 <;> simp [a3]⟩
      · intro w hw
        simp only [Dict.keys_mem_set]
        rcases List.mem_append.mp hw with hw | hw
        · have := h3 w hw
          split_ifs at this ⊢ <;> simp [this]
        · obtain rfl := List.mem_singleton.mp hw
          rw [if_neg he]; simp

/-! ### From the table of links to arrows -/

theorem flowOf_found {lines : List Viewer.Line} {x y : Cell} {q : ℚ}
    (h : ∀ l ∈ lines, l.1 = [x, y] → Viewer.Line.value l "used" = .ok q) (h0 : ∃ l ∈ lines, l.1 = [x, y]) :
    Viewer.flowOf lines x y = .ok q := by
  unfold Viewer.flowOf
  cases hf : lines.find? fun l => decide (l.1 = [x, y]) with
  | none =>
    obtain ⟨l, hl, e⟩ := h0
    have := List.find?_eq_none.mp hf l hl
    simp [e] at this
  | some l =>
    have h1 := List.mem_of_find?_eq_some hf
    have h2 := List.find?_some hf
    exact h l h1 (by simpa using h2)

theorem map_arrows {pt : Pivot} {P : Cell → Cell → Prop} {flow : Cell → Cell → ℚ}
    (hlev : pt.lines ≠ [] → pt.levels = ["node", "dest"]) (hnode : "node" ∈ pt.levels)
    (hkey : ∀ l ∈ pt.lines, ∃ x y, l.1 = [x, y] ∧ P x y)
    (hP : ∀ x y, P x y → ∃ l ∈ pt.lines, l.1 = [x, y])
    (hval : ∀ l ∈ pt.lines, ∀ x y, l.1 = [x, y] → Viewer.Line.value l "used" = .ok (flow x y))
    (hzero : ∀ x y, ¬ P x y → flow x y = 0) :
    ∃ (srcs : List Cell) (arrows : Dict (Cell × Cell) ℚ), Viewer.levelValues pt "node" = .ok srcs ∧
      (Viewer.unique srcs).foldlM (fun arrows src => do
        let dests ← Viewer.levelValues ⟨pt.levels.tail, Viewer.loc pt.lines src⟩ "dest"
        (Viewer.unique dests).foldlM (fun arrows dest => Viewer.drawExchange pt.lines arrows src dest) arrows) [] =
          .ok arrows ∧
      arrows.keys.Nodup ∧
      (∀ p ∈ arrows, p.2 = flow p.1.1 p.1.2 - flow p.1.2 p.1.1 ∧ 0 ≤ p.2 ∧ (P p.1.1 p.1.2 ∨ P p.1.2 p.1.1)) ∧
      ∀ x y, P x y → if 0 ≤ flow x y - flow y x then (x, y) ∈ arrows.keys else (y, x) ∈ arrows.keys := by
  by_cases hl : pt.lines = []
  · refine ⟨[], [], ?_, rfl, List.nodup_nil, by simp, ?_⟩
    · unfold Viewer.levelValues Analyzer.level
      rw [if_pos hnode, hl]; rfl
    · intro x y hxy
      obtain ⟨l, h, _⟩ := hP x y hxy
      rw [hl] at h; cases h
  · have hlv := hlev hl
    have hsrcs : Viewer.levelValues pt "node" = .ok (pt.lines.map fun l => l.1.getD 0 .nan) := by
      unfold Viewer.levelValues Analyzer.level
      rw [hlv, if_pos (by simp)]; rfl
    have hdests : ∀ src, Viewer.levelValues ⟨pt.levels.tail, Viewer.loc pt.lines src⟩ "dest" =
        .ok ((Viewer.loc pt.lines src).map fun l => l.1.getD 0 .nan) := by
      intro src
      unfold Viewer.levelValues Analyzer.level
      rw [hlv, if_pos (by simp)]; rfl
    have hany : ∀ x y, (pt.lines.any fun l => decide (l.1 = [x, y])) = true ↔ P x y := by
      intro x y
      rw [List.any_eq_true]
      constructor
      · rintro ⟨l, h1, h2⟩
        obtain ⟨x', y', h3, h4⟩ := hkey l h1
        simp only [decide_eq_true_eq] at h2
        rw [h2] at h3
        simp only [List.cons.injEq, and_true] at h3
        rw [h3.1, h3.2]; exact h4
      · intro h
        obtain ⟨l, h1, h2⟩ := hP x y h
        exact ⟨l, h1, by simp [h2]⟩
    set W : List (Cell × Cell) := (Viewer.unique (pt.lines.map fun l => l.1.getD 0 .nan)).flatMap fun src =>
      (Viewer.unique ((Viewer.loc pt.lines src).map fun l => l.1.getD 0 .nan)).map fun dest => (src, dest) with hW
    have hmem : ∀ x y, (x, y) ∈ W ↔ P x y := by
      intro x y
      rw [hW]
      simp only [List.mem_flatMap, viewer_mem_unique, List.mem_map, Prod.mk.injEq, Viewer.loc, List.mem_filter]
      constructor
      · rintro ⟨_, ⟨l0, _, rfl⟩, _, ⟨_, ⟨l, ⟨h1, h2⟩, rfl⟩, rfl⟩, rfl, rfl⟩
        obtain ⟨x', y', h3, h4⟩ := hkey l h1
        rw [h3] at h2 ⊢
        simp only [List.head?_cons, Option.some.injEq, decide_eq_true_eq] at h2
        rw [← h2]
        exact h4
      · intro h
        obtain ⟨l, h1, h2⟩ := hP x y h
        exact ⟨x, ⟨l, h1, by rw [h2]; rfl⟩, y, ⟨_, ⟨l, ⟨h1, by simp [h2]⟩, rfl⟩, by rw [h2]; rfl⟩, rfl, rfl⟩
    have hdraw : ∀ w ∈ W, ∀ arrows, Viewer.drawExchange pt.lines arrows w.1 w.2 =
        .ok (arrowStep flow arrows w) := by
      rintro ⟨x, y⟩ hw arrows
      have hxy := (hmem x y).mp hw
      have hfl : ∀ x y, P x y → Viewer.flowOf pt.lines x y = .ok (flow x y) := fun x y h =>
        flowOf_found (fun l hl e => hval l hl x y e) (hP x y h)
      unfold Viewer.drawExchange arrowStep
      simp only [hfl x y hxy, bind, Except.bind, pure, Except.pure]
      by_cases hyx : P y x
      · rw [if_pos ((hany y x).mpr hyx), hfl y x hyx]
      · rw [if_neg (by rw [hany]; exact hyx), hzero y x hyx]
    obtain ⟨a1, a2, a3⟩ := arrows_fold flow W
    refine ⟨_, W.foldl (arrowStep flow) [], hsrcs, ?_, a1, ?_, ?_⟩
    · have e := foldlM_flatMap_ok (σ := Dict (Cell × Cell) ℚ)
        (l := Viewer.unique (pt.lines.map fun l => l.1.getD 0 .nan))
        (W := fun src => (Viewer.unique ((Viewer.loc pt.lines src).map fun l => l.1.getD 0 .nan)).map
          fun dest => (src, dest))
        (f := fun arrows src => do
          let dests ← Viewer.levelValues ⟨pt.levels.tail, Viewer.loc pt.lines src⟩ "dest"
          (Viewer.unique dests).foldlM (fun arrows dest => Viewer.drawExchange pt.lines arrows src dest) arrows)
        (g := fun arrows w => Viewer.drawExchange pt.lines arrows w.1 w.2) (by
          intro src _ st
          simp only [hdests, bind, Except.bind]
          rw [List.foldlM_map]) []
      exact e.trans (foldlM_pure hdraw [])
    · intro p hp
      obtain ⟨b1, b2, b3⟩ := a2 p hp
      exact ⟨b1, b2, b3.imp (hmem _ _).mp (hmem _ _).mp⟩
    · intro x y hxy
      exact a3 (x, y) ((hmem x y).mpr hxy)

end Hadar
