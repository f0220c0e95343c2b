import Verif.Spec.Steps
import Verif.Props.Laws

/-!
# C142: data can be processed piece by piece
-/

namespace Hadar.Props

open Hadar Spec

variable {σ : Type} {g : Rng σ} {w : PipeWorld σ}

/-! ### Row by row -/

/-- a way to choose rows -/
structure RowChoice (fi : List Cell → List Cell) (fv : List Val → List Val) : Prop where
  clip : ∀ (f : Val → Val) l, fv (l.map f) = (fv l).map f
  size : ∀ i i' : List Cell, i.length = i'.length → (fi i).length = (fi i').length

/-- `u` has the columns of `t` with other rows -/
def HasRows (fi : List Cell → List Cell) (fv : List Val → List Val) (t u : Timeline) : Prop :=
  u.cols = t.cols.map (fun c => (c.1, fv c.2)) ∧ u.index.length = (fi t.index).length

def RowsOut (fi : List Cell → List Cell) (fv : List Val → List Val) : Except PyErr Timeline → Except PyErr Timeline → Prop
  | .ok t, .ok u => HasRows fi fv t u
  | .error e, .error e' => e' = e
  | _, _ => False

variable {fi : List Cell → List Cell} {fv : List Val → List Val}

theorem HasRows.labels {t u : Timeline} (h : HasRows fi fv t u) : u.cols.map (·.1) = t.cols.map (·.1) := by
  rw [h.1]; simp [List.map_map, Function.comp_def]

theorem timeline_withRows (d : Data) : (d.withRows fi fv).timeline = d.timeline.withRows fi fv := by
  cases d <;> simp [Data.withRows, Data.timeline, Timeline.withRows, List.map_map, Function.comp_def]

theorem withRows_labels (t : Timeline) : (t.withRows fi fv).cols.map (·.1) = t.cols.map (·.1) := by
  simp [Timeline.withRows, List.map_map, Function.comp_def]

theorem needing_rows (names : List String) (t t' : Timeline) :
    needing names (t.withRows fi fv) (t'.withRows fi fv) = (needing names t t').map (Timeline.withRows fi fv) := by
  unfold needing
  rw [names_of_labels (withRows_labels t)]
  split <;> rfl

/-- other rows, column by column -/
def onRows (fv : List Val → List Val) (cols : List ((Cell × String) × List Val)) : List ((Cell × String) × List Val) :=
  cols.map fun c => (c.1, fv c.2)

/-- stages that keep row labels -/
theorem label_computes (hc : RowChoice fi fv) {s : ℕ} (h : LabelStage w s) :
    ∃ (names : List String) (φ : List ((Cell × String) × List Val) → List ((Cell × String) × List Val)), Computes g w s (fun t => needing names t ⟨t.index, φ t.cols⟩) ∧ ∀ cols, φ (onRows fv cols) = onRows fv (φ cols) := by
  cases h with
  | @clip l u h =>
    refine ⟨[], fun cols => cols.map fun c => (c.1, c.2.map (clipValue l u)), ?_, fun cols => ?_⟩
    · simpa [needing, clipFrame] using clip_computes (g := g) h
    · simp [onRows, List.map_map, Function.comp_def, hc.clip]
  | @rename ns h =>
    refine ⟨_, fun cols => cols.map fun c => ((c.1.1, renameName ns c.1.2), c.2), rename_computes h, fun cols => ?_⟩
    simp [onRows, List.map_map, Function.comp_def]
  | @drop ns h =>
    refine ⟨_, fun cols => cols.filter fun c => !decide (c.1.2 ∈ ns), drop_computes h, fun cols => ?_⟩
    simp [onRows, List.filter_map, Function.comp_def]

theorem inTurn_cons {a : ℕ} {f : Timeline → Except PyErr Timeline} (ha : Computes g w a f) (l : List ℕ) (d : Data) (r : Rand σ) :
    (∃ e, f d.timeline = .error e ∧ inTurn g w (a :: l) d r = .error e) ∨
    ∃ t r', f d.timeline = .ok t ∧ inTurn g w (a :: l) d r = inTurn g w l (.multi t) r' := by
  have h := ha d r
  rw [inTurn]
  rcases hc : w.callStage g a (d, r) with ⟨e | t, x⟩
  · rw [hc] at h; exact .inl ⟨e, h.symm, rfl⟩
  · rw [hc] at h; exact .inr ⟨t, x.2, h.symm, rfl⟩

/-- without `RepeatScenario`, rows with their labels -/
theorem inTurn_label (hc : RowChoice fi fv) {sl : List ℕ} (hs : ∀ s ∈ sl, LabelStage w s) (d : Data) (r r' : Rand σ) :
    inTurn g w sl (d.withRows fi fv) r' = (inTurn g w sl d r).map (Timeline.withRows fi fv) := by
  induction sl generalizing d r r' with
  | nil => exact congrArg Except.ok (timeline_withRows d)
  | cons s sl ih =>
    obtain ⟨names, φ, hf, hφ⟩ := label_computes (g := g) hc (hs s (.head _))
    have h1 : needing names (d.timeline.withRows fi fv) ⟨(d.timeline.withRows fi fv).index, φ (d.timeline.withRows fi fv).cols⟩ =
        (needing names d.timeline ⟨d.timeline.index, φ d.timeline.cols⟩).map (Timeline.withRows fi fv) := by
      rw [← needing_rows]
      exact congrArg _ (congrArg (Timeline.mk _) (hφ d.timeline.cols))
    rw [← timeline_withRows] at h1
    rcases inTurn_cons hf sl d r with ⟨e, he, e1⟩ | ⟨t, ρ, ht, e1⟩ <;>
      rcases inTurn_cons hf sl (d.withRows fi fv) r' with ⟨e', he', e2⟩ | ⟨t', ρ', ht', e2⟩
    · rw [he, he'] at h1
      cases h1
      rw [e1, e2]; rfl
    · rw [he, ht'] at h1; cases h1
    · rw [ht, he'] at h1; cases h1
    · rw [ht, ht'] at h1
      cases h1
      rw [e1, e2]
      exact ih (fun s h => hs s (.tail _ h)) (.multi t) ρ ρ'

/-- one stage on frames that only have their rows in common -/
theorem step_computes (hc : RowChoice fi fv) {s : ℕ} (h : StepStage w s) : ∃ f, Computes g w s f ∧
    ∀ t u, HasRows fi fv t u → RowsOut fi fv (f t) (f u) := by
  cases h with
  | keeps h =>
    obtain ⟨names, φ, hf, hφ⟩ := label_computes (g := g) hc h
    refine ⟨_, hf, fun t u hr => ?_⟩
    unfold needing
    rw [names_of_labels hr.labels]
    split
    · exact ⟨by rw [show u.cols = onRows fv t.cols from hr.1]; exact hφ t.cols, hr.2⟩
    · exact rfl
  | @repeats n h =>
    refine ⟨_, repeat_computes h, fun t u hr => ?_⟩
    unfold repeatFrame
    rw [names_of_labels hr.labels, scenarios_of_labels hr.labels, show u.cols.length = t.cols.length by rw [hr.1]; simp]
    split
    · refine ⟨?_, ?_⟩
      · simp only
        rw [show (fun c : (Cell × String) × List Val => (c.1, fv c.2)) = Prod.map id fv from rfl, ← List.zip_map_right, hr.1]
        simp [List.map_flatten, List.map_replicate, List.map_map, Function.comp_def]
      · simp only
        rw [range_length, hr.2]
        exact hc.size _ _ (range_length _).symm
    · exact rfl

theorem inTurn_step (hc : RowChoice fi fv) {sl : List ℕ} (hs : ∀ s ∈ sl, StepStage w s) (d d' : Data)
    (hd : HasRows fi fv d.timeline d'.timeline) (r r' : Rand σ) : RowsOut fi fv (inTurn g w sl d r) (inTurn g w sl d' r') := by
  induction sl generalizing d d' r r' with
  | nil => exact hd
  | cons s sl ih =>
    obtain ⟨f, hf, h⟩ := step_computes (g := g) hc (hs s (.head _))
    have h1 := h _ _ hd
    rcases inTurn_cons hf sl d r with ⟨e, he, e1⟩ | ⟨t, ρ, ht, e1⟩ <;>
      rcases inTurn_cons hf sl d' r' with ⟨e', he', e2⟩ | ⟨t', ρ', ht', e2⟩
    · rw [he, he'] at h1; rw [e1, e2]; exact h1
    · rw [he, ht'] at h1; exact h1.elim
    · rw [ht, he'] at h1; exact h1.elim
    · rw [ht, ht'] at h1
      rw [e1, e2]
      exact ih (fun s h => hs s (.tail _ h)) (.multi t) (.multi t') h1 ρ ρ'

theorem rows_withRows (d : Data) : HasRows fi fv d.timeline (d.withRows fi fv).timeline := by
  rw [timeline_withRows]
  exact ⟨rfl, rfl⟩

theorem known_of {mk : PyM (PipeWorld σ) ℕ} {s : ℕ} (h : MadeBy mk w s)
    (hmk : ∀ w0 w1, mk w0 = (.ok s, w1) → ∃ st, w1.stages[s]? = some st) : ∃ st, w.stages[s]? = some st := by
  obtain ⟨w0, w1, h1, h2⟩ := h
  rw [← h2]
  exact hmk w0 w1 h1

theorem step_known {s : ℕ} (h : StepStage w s) : ∃ st, w.stages[s]? = some st := by
  rcases h with (h | h | h) | h <;> refine known_of h fun w0 w1 h1 => ?_
  all_goals
    simp only [PipeWorld.newClip, PipeWorld.newRename, PipeWorld.newDrop, PipeWorld.newRepeat, PipeWorld.newRestricted,
      PipeWorld.newFree, Prod.mk.injEq, Except.ok.injEq] at h1
    obtain ⟨rfl, rfl⟩ := h1
    exact ⟨_, new_stage ..⟩

theorem pipe_inTurn (p : ℕ) {plug : Plug} {l : ℕ} (hp : w.pipes[p]? = some (plug, l)) (hs : ∀ s ∈ w.lists.getD l [], StepStage w s)
    (d : Data) (r : Rand σ) : (w.callPipe g p (d, r)).1 =
      if plug.computable d.timeline.names then inTurn g w (w.lists.getD l []) (.multi d.timeline) r else .error .valueError := by
  have run : ∀ (sl : List ℕ) (t : Timeline) (r : Rand σ), (∀ s ∈ sl, ∃ st, w.stages[s]? = some st) →
      (callStages g w.outs (sl.filterMap (w.stages[·]?)) t r).1 = inTurn g w sl (.multi t) r := by
    intro sl
    induction sl with
    | nil => intro t r _; rfl
    | cons s sl ih =>
      intro t r h
      obtain ⟨st, hst⟩ := h s (.head _)
      rw [List.filterMap_cons, hst]
      simp only [callStages, inTurn, PipeWorld.callStage, hst]
      rcases st.call g w.outs (.multi t, r) with ⟨e | t', x⟩
      · rfl
      · exact ih t' x.2 fun s h' => h s (.tail _ h')
  simp only [PipeWorld.callPipe, hp, callPipeline_run]
  split
  · exact run _ _ _ fun s h => step_known (hs s h)
  · rfl

theorem choice_places (J : List ℕ) : RowChoice (atPlaces J) (atPlaces J) where
  clip f l := by simp [atPlaces, List.map_filterMap]
  size i i' h := by
    unfold atPlaces
    induction J with
    | nil => rfl
    | cons j J ih =>
      by_cases hj : j < i.length
      · simp only [List.filterMap_cons, List.getElem?_eq_getElem hj, List.getElem?_eq_getElem (h ▸ hj)]
        simpa using ih
      · rw [List.filterMap_cons, List.filterMap_cons, List.getElem?_eq_none (by omega), List.getElem?_eq_none (by omega)]
        exact ih

theorem choice_take (m : ℕ) : RowChoice (List.take m) (List.take m) := ⟨fun f l => List.map_take.symm, fun i i' h => by simp [h]⟩

theorem choice_drop (m : ℕ) : RowChoice (List.drop m) (List.drop m) := ⟨fun f l => List.map_drop.symm, fun i i' h => by simp [h]⟩

theorem sameAt_of {J : List ℕ} {x y : Except PyErr Timeline} (h : RowsOut (atPlaces J) (atPlaces J) x y) : SameRowsAt J x y := by
  rcases x with e | t <;> rcases y with e' | u
  · rw [show e' = e from h]; exact .error e
  · exact h.elim
  · exact h.elim
  · exact .ok h.1 h.2

/-! ### The property -/

/-- C142: stages in turn on some of the rows -/
theorem C142 {sl : List ℕ} (hs : ∀ s ∈ sl, StepStage w s) (J : List ℕ) (d : Data) (r r' : Rand σ) :
    SameRowsAt J (inTurn g w sl d r) (inTurn g w sl (d.rowsAt J) r') :=
  sameAt_of (inTurn_step (choice_places J) hs d _ (rows_withRows d) r r')

/-- C142: when nothing is repeated, rows keep their labels too -/
theorem C142_labels {sl : List ℕ} (hs : ∀ s ∈ sl, LabelStage w s) (J : List ℕ) (d : Data) (r r' : Rand σ) :
    inTurn g w sl (d.rowsAt J) r' = (inTurn g w sl d r).map (Timeline.rowsAt J) :=
  inTurn_label (choice_places J) hs d r r'

/-- C142: pipelines on some of the rows -/
theorem C142_pipeline {p l : ℕ} {plug : Plug} (hp : w.pipes[p]? = some (plug, l))
    (hs : ∀ s ∈ w.lists.getD l [], StepStage w s) (J : List ℕ) (d : Data) (r r' : Rand σ) :
    SameRowsAt J (w.callPipe g p (d, r)).1 (w.callPipe g p (d.rowsAt J, r')).1 := by
  rw [pipe_inTurn p hp hs, pipe_inTurn p hp hs,
    show (d.rowsAt J).timeline.names = _ from names_of_labels (rows_withRows d).labels]
  split
  · exact sameAt_of (inTurn_step (choice_places J) hs (.multi d.timeline) (.multi (d.rowsAt J).timeline) (rows_withRows d) r r')
  · exact .error _

theorem followed {x a b : Except PyErr Timeline} {m : ℕ} (ha : RowsOut (List.take m) (List.take m) x a)
    (hb : RowsOut (List.drop m) (List.drop m) x b) : FollowedBy x a b := by
  rcases x with e | t <;> rcases a with e' | a <;> rcases b with e'' | b
  · rw [show e' = e from ha, show e'' = e from hb]; exact .error e
  · exact hb.elim
  · exact ha.elim
  · exact ha.elim
  · exact ha.elim
  · exact ha.elim
  · exact hb.elim
  · refine .ok (HasRows.labels ha) (HasRows.labels hb) ?_ ?_
    · rw [ha.1, hb.1]
      simp [List.map_map, Function.comp_def, List.zipWith_map_left, List.zipWith_map_right, List.zipWith_self]
    · rw [ha.2, hb.2]
      simp
      omega

/-- C142: a period cut in two -/
theorem C142_cut {sl : List ℕ} (hs : ∀ s ∈ sl, StepStage w s) (m : ℕ) (d : Data) (r r' r'' : Rand σ) :
    FollowedBy (inTurn g w sl d r) (inTurn g w sl (d.firstRows m) r') (inTurn g w sl (d.otherRows m) r'') :=
  followed (inTurn_step (choice_take m) hs d _ (rows_withRows d) r r') (inTurn_step (choice_drop m) hs d _ (rows_withRows d) r r'')

/-- C142: a period cut in two, for pipelines -/
theorem C142_cut_pipeline {p l : ℕ} {plug : Plug} (hp : w.pipes[p]? = some (plug, l))
    (hs : ∀ s ∈ w.lists.getD l [], StepStage w s) (m : ℕ) (d : Data) (r r' r'' : Rand σ) :
    FollowedBy (w.callPipe g p (d, r)).1 (w.callPipe g p (d.firstRows m, r')).1 (w.callPipe g p (d.otherRows m, r'')).1 := by
  rw [pipe_inTurn p hp hs, pipe_inTurn p hp hs, pipe_inTurn p hp hs,
    show (d.firstRows m).timeline.names = _ from names_of_labels (rows_withRows d).labels,
    show (d.otherRows m).timeline.names = _ from names_of_labels (rows_withRows d).labels]
  split
  · exact followed (inTurn_step (choice_take m) hs (.multi d.timeline) (.multi (d.firstRows m).timeline) (rows_withRows d) r r')
      (inTurn_step (choice_drop m) hs (.multi d.timeline) (.multi (d.otherRows m).timeline) (rows_withRows d) r r'')
  · exact .error _

/-! ### Examples -/

theorem step_stages : ∀ s ∈ [1, 0, 2, 3], StepStage (lawWorld (σ := σ)) s := by
  intro s hs
  simp only [List.mem_cons, List.not_mem_nil, or_false] at hs
  rcases hs with rfl | rfl | rfl | rfl
  · exact .keeps (.rename law1)
  · exact .keeps (.clip law0)
  · exact .keeps (.drop law2)
  · exact .repeats law3

/-- rename, clip, drop and repeat give something -/
theorem step_whole (g : Rng σ) (r : Rand σ) : inTurn g lawWorld [1, 0, 2, 3] lawData r =
    .ok ⟨rangeIndex 2, [((.num 0, "quantity"), [some 0, some 2]), ((.num 1, "quantity"), [some 0, some 2])]⟩ := by
  have h (f : Timeline → Except PyErr Timeline) (a : ℕ) (hf : Computes g (lawWorld (σ := σ)) a f) (l : List ℕ) (d : Data) (r : Rand σ)
      (t : Timeline) (ht : f d.timeline = .ok t) : ∃ r', inTurn g lawWorld (a :: l) d r = inTurn g lawWorld l (.multi t) r' := by
    rcases inTurn_cons hf l d r with ⟨e, he, -⟩ | ⟨t', r', ht', h⟩
    · rw [ht] at he; cases he
    · rw [ht] at ht'; cases ht'; exact ⟨r', h⟩
  obtain ⟨r1, e1⟩ := h _ _ (rename_computes law1) [0, 2, 3] lawData r
    ⟨[.num 0, .num 1], [((.num 0, "quantity"), [some (-3), some 2]), ((.num 0, "wind"), [some 7, none])]⟩ (by decide +kernel)
  obtain ⟨r2, e2⟩ := h _ _ (clip_computes law0) [2, 3] (.multi ⟨[.num 0, .num 1], [((.num 0, "quantity"), [some (-3), some 2]),
    ((.num 0, "wind"), [some 7, none])]⟩) r1
    ⟨[.num 0, .num 1], [((.num 0, "quantity"), [some 0, some 2]), ((.num 0, "wind"), [some 7, none])]⟩ (by decide +kernel)
  obtain ⟨r3, e3⟩ := h _ _ (drop_computes law2) [3] (.multi ⟨[.num 0, .num 1], [((.num 0, "quantity"), [some 0, some 2]),
    ((.num 0, "wind"), [some 7, none])]⟩) r2
    ⟨[.num 0, .num 1], [((.num 0, "quantity"), [some 0, some 2])]⟩ (by decide +kernel)
  rw [e1, e2, e3, inTurn_one (repeat_computes law3)]
  decide +kernel

theorem sameRows_ok {J : List ℕ} {x y : Except PyErr Timeline} (h : SameRowsAt J x y) {t : Timeline} (hx : x = .ok t) :
    ∃ t', y = .ok t' ∧ t'.cols = (t.rowsAt J).cols := by
  subst hx
  cases h with
  | ok h => exact ⟨_, rfl, h⟩

/-- the second time step alone -/
example (r : Rand σ) : ∃ t', inTurn g lawWorld [1, 0, 2, 3] (lawData.rowsAt [1]) r = .ok t' ∧
    t'.cols = [((.num 0, "quantity"), [some 2]), ((.num 1, "quantity"), [some 2])] := by
  obtain ⟨t', e, h⟩ := sameRows_ok (C142 (g := g) (w := lawWorld) (sl := [1, 0, 2, 3]) step_stages [1] lawData r r) (step_whole g r)
  exact ⟨t', e, h.trans (by decide +kernel)⟩

/-- the time steps in reverse order, with their labels -/
example (r r' : Rand σ) : inTurn g lawWorld [1, 0, 2] (lawData.rowsAt [1, 0]) r' =
    (inTurn g lawWorld [1, 0, 2] lawData r).map (Timeline.rowsAt [1, 0]) := by
  refine C142_labels (w := lawWorld) (sl := [1, 0, 2]) (fun s hs => ?_) [1, 0] lawData r r'
  simp only [List.mem_cons, List.not_mem_nil, or_false] at hs
  rcases hs with rfl | rfl | rfl
  · exact .rename law1
  · exact .clip law0
  · exact .drop law2

/-- one time step, then the other -/
example (r r' r'' : Rand σ) : FollowedBy (inTurn g lawWorld [1, 0, 2, 3] lawData r)
    (inTurn g lawWorld [1, 0, 2, 3] (lawData.firstRows 1) r') (inTurn g lawWorld [1, 0, 2, 3] (lawData.otherRows 1) r'') :=
  C142_cut (w := lawWorld) (sl := [1, 0, 2, 3]) step_stages 1 lawData r r' r''

/-- a pipeline of two stages -/
def stepWorld : PipeWorld σ :=
  (((do
    let a ← PipeWorld.newRename [("load", "quantity")]
    let b ← PipeWorld.newRepeat 2
    let l ← PipeWorld.newList [a, b]
    PipeWorld.newPipeline l) : PyM (PipeWorld σ) ℕ) PipeWorld.empty).2

theorem stepWorld_step : ∀ s ∈ (stepWorld (σ := σ)).lists.getD 0 [], StepStage (stepWorld (σ := σ)) s := by
  intro s hs
  rcases List.mem_cons.1 (show s ∈ [0, 1] from hs) with rfl | hs
  · exact .keeps (.rename (names := [("load", "quantity")]) ⟨PipeWorld.empty, _, rfl, rfl⟩)
  · rw [List.mem_singleton.1 hs]
    exact .repeats (n := 2) ⟨(PipeWorld.newRename [("load", "quantity")] PipeWorld.empty).2, _, rfl, rfl⟩

/-- the second time step alone in the pipeline -/
example (r r' : Rand σ) : SameRowsAt [1] ((stepWorld (σ := σ)).callPipe g 0 (lawData, r)).1
    ((stepWorld (σ := σ)).callPipe g 0 (lawData.rowsAt [1], r')).1 :=
  C142_pipeline (p := 0) (l := 0) rfl stepWorld_step [1] lawData r r'

/-- one time step in the pipeline, then the other -/
example (r r' r'' : Rand σ) : FollowedBy ((stepWorld (σ := σ)).callPipe g 0 (lawData, r)).1
    ((stepWorld (σ := σ)).callPipe g 0 (lawData.firstRows 1, r')).1 ((stepWorld (σ := σ)).callPipe g 0 (lawData.otherRows 1, r'')).1 :=
  C142_cut_pipeline (p := 0) (l := 0) rfl stepWorld_step 1 lawData r r' r''

/-- the pipeline accepts the data -/
example (r : Rand σ) : ((stepWorld (σ := σ)).callPipe g 0 (lawData, r)).1 =
    .ok ⟨rangeIndex 2, [((.num 0, "quantity"), [some (-3), some 2]), ((.num 0, "wind"), [some 7, none]),
      ((.num 1, "quantity"), [some (-3), some 2]), ((.num 1, "wind"), [some 7, none])]⟩ := by
  rfl

end Hadar.Props
