import Verif.Proofs.Stages

/-!
# Properties of the workflow pipeline (C47 - C56, C66)
-/

namespace Hadar.Props

open Hadar Spec

variable {σ : Type}

/-! ### C47: a pipeline is the composition of its stages -/

/-- A pipeline gives `t'` exactly when the data has the columns the pipeline requires and calling the stages
one after the other gives `t'`. -/
theorem C47 (g : Rng σ) (w : PipeWorld σ) {p : ℕ} {plug : Plug} {l : ℕ} (hp : w.pipes[p]? = some (plug, l))
    {d : Data} {t : Timeline} (hd : Labelled d t) (r r' : Rand σ) (t' : Timeline) :
    (∃ d', w.callPipe g p (d, r) = (.ok t', (d', r'))) ↔
      (∀ n ∈ plug.inputs, hasColumn d n) ∧ Chain g w.outs (w.stagesOf l) t r t' r' := by
  have e := hd.eq
  subst e
  simp only [PipeWorld.callPipe, hp]
  rw [callPipeline_run]
  have hcomp := Plug.computable_iff plug d.timeline
  simp only [has_timeline] at hcomp
  rw [← hcomp, ← callStages_ok]
  by_cases h : plug.computable d.timeline.names = true
  · rw [if_pos h]
    simp only [h, true_and]
    constructor
    · rintro ⟨d', e⟩
      simp only [Prod.mk.injEq] at e
      exact Prod.ext e.1 e.2.2
    · intro e
      refine ⟨.multi d.timeline, ?_⟩
      rw [e]
  · rw [if_neg h]
    simp [h]

/-- A pipeline fails exactly when the data lacks a required column, or one of the stages fails on what the
stages before it gave. -/
theorem C47_fails (g : Rng σ) (w : PipeWorld σ) {p : ℕ} {plug : Plug} {l : ℕ}
    (hp : w.pipes[p]? = some (plug, l)) {d : Data} {t : Timeline} (hd : Labelled d t) (r : Rand σ)
    (e : PyErr) :
    (w.callPipe g p (d, r)).1 = .error e ↔
      ((∃ n ∈ plug.inputs, ¬ hasColumn d n) ∧ e = .valueError) ∨
      ((∀ n ∈ plug.inputs, hasColumn d n) ∧
        ∃ pre st post t1 r1, w.stagesOf l = pre ++ st :: post ∧ Chain g w.outs pre t r t1 r1 ∧
          (st.call g w.outs (.multi t1, r1)).1 = .error e) := by
  have e' := hd.eq
  subst e'
  simp only [PipeWorld.callPipe, hp]
  rw [callPipeline_run]
  have hcomp := Plug.computable_iff plug d.timeline
  simp only [has_timeline] at hcomp
  rw [← callStages_error, ← hcomp]
  have hcomp' : (∃ n ∈ plug.inputs, ¬ hasColumn d n) ↔ ¬ (plug.computable d.timeline.names = true) := by
    rw [hcomp]
    push Not
    rfl
  rw [hcomp']
  by_cases h : plug.computable d.timeline.names = true
  · rw [if_pos h]
    simp [h]
  · rw [if_neg h]
    simp [h, eq_comm]

/-- A stage fails when the data lacks a column it needs; otherwise it does what its processing does, on a
freshly seeded generator. -/
theorem C47_stage (g : Rng σ) (w : PipeWorld σ) {s : ℕ} {st : Stage σ} (hs : w.stages[s]? = some st)
    {d : Data} {t : Timeline} (hd : Labelled d t) (r : Rand σ) :
    ((∃ n ∈ st.plug.inputs, ¬ hasColumn d n) → (w.callStage g s (d, r)).1 = .error .valueError) ∧
    ((∀ n ∈ st.plug.inputs, hasColumn d n) →
      (w.callStage g s (d, r)).1 = (st.process (st.plug.outputs w.outs) t
        ⟨g.seed (r.os 0).val, fun i => r.os (i + 1)⟩).1) := by
  have e' := hd.eq
  subst e'
  simp only [PipeWorld.callStage, hs]
  rw [Stage.call_run]
  have hcomp := Plug.computable_iff st.plug d.timeline
  simp only [has_timeline] at hcomp
  constructor
  · rintro ⟨n, h1, h2⟩
    rw [if_neg (by rw [hcomp]; intro h; exact h2 (h n h1))]
  · intro h
    rw [if_pos (hcomp.2 h)]
    rfl

/-! ### C49: plug arithmetic -/

/-- Adding plugs follows the documented rules. -/
theorem C49 {h : Heap} {p q : Plug} {a b} (ha : Sees h p a) (hb : Sees h q b) :
    ∃ p' h' c, p.add q h = (.ok p', h') ∧ Sees h' p' c ∧ Links a b c := by
  obtain ⟨p', h', hadd⟩ := p.add_ok q h
  obtain ⟨c, hc⟩ := Plug.add_links ha hb hadd
  exact ⟨p', h', c, hadd, hc⟩

/-- Adding a stage to a pipeline is refused exactly when a column the stage needs is not given. -/
theorem C49_refused (w : PipeWorld σ) {p s : ℕ} {plug : Plug} {l : ℕ} {st : Stage σ} {a b}
    (hp : w.pipes[p]? = some (plug, l)) (hs : w.stages[s]? = some st)
    (ha : Sees w.outs plug a) (hb : Sees w.outs st.plug b) :
    (MayFollow a b → (PipeWorld.pipeAdd p s w).1 = .ok p) ∧
    (¬ MayFollow a b → PipeWorld.pipeAdd p s w = (.error .valueError, w)) := by
  simp only [PipeWorld.pipeAdd, hp, hs]
  have hl := Plug.linkable_iff ha hb
  obtain ⟨p', h', hadd⟩ := plug.add_ok st.plug w.outs
  constructor
  · intro h
    rw [if_pos (hl.2 h), hadd]
  · intro h
    rw [if_neg (fun e => h (hl.1 e))]

/-- Adding two stages is refused exactly when a column the second needs is not given by the first. -/
theorem C49_stages (w : PipeWorld σ) {x y : ℕ} {sx sy : Stage σ} {a b}
    (hx : w.stages[x]? = some sx) (hy : w.stages[y]? = some sy)
    (ha : Sees w.outs sx.plug a) (hb : Sees w.outs sy.plug b) :
    (MayFollow a b → (PipeWorld.stageAdd x y w).1 = .ok w.pipes.length) ∧
    (¬ MayFollow a b → (PipeWorld.stageAdd x y w).1 = .error .valueError) := by
  have hst : PipeWorld.stagesOf { w with lists := w.lists ++ [[x, y]] } w.lists.length = [sx, sy] := by
    simp [PipeWorld.stagesOf, List.getD_eq_getElem?_getD, List.filterMap_cons, hx, hy]
  have hl := Plug.linkable_iff ha hb
  obtain ⟨p', h', hadd⟩ := sx.plug.add_ok sy.plug w.outs
  simp only [PipeWorld.stageAdd, PyM.bind_run, PipeWorld.newList, PipeWorld.newPipeline, hst, List.map_cons,
    List.map_nil, linkAll]
  constructor
  · intro h
    rw [if_pos (hl.2 h), hadd]
    rfl
  · intro h
    rw [if_neg (fun e => h (hl.1 e))]

/-! ### C56: the data of the caller -/

/-- Data given with scenario labels is left intact by a stage, whether it succeeds or not. -/
theorem C56_stage (g : Rng σ) (w : PipeWorld σ) (s : ℕ) (t : Timeline) (r : Rand σ) :
    (w.callStage g s (.multi t, r)).2.1 = .multi t := by
  unfold PipeWorld.callStage
  cases w.stages[s]? with
  | some st => exact Stage.call_frame _ _ _ _ _
  | none => rfl

/-- Data given with scenario labels is left intact by a pipeline, whether it succeeds or not. -/
theorem C56_pipeline (g : Rng σ) (w : PipeWorld σ) (p : ℕ) (t : Timeline) (r : Rand σ) :
    (w.callPipe g p (.multi t, r)).2.1 = .multi t := by
  unfold PipeWorld.callPipe
  cases w.pipes[p]? with
  | some x =>
    simp only
    rw [callPipeline_run]
    split <;> rfl
  | none => rfl

/-- The full claim, for any data, is `(w.callPipe g p (d, r)).2.1 = d`. For data given with plain names
only this is true: the values, rows and names are the same, under scenario 0. -/
theorem C56_plain_partial (g : Rng σ) (w : PipeWorld σ) {p : ℕ} (hp : p < w.pipes.length) (f : Scen)
    (r : Rand σ) :
    ∃ t, (w.callPipe g p (.plain f, r)).2.1 = .multi t ∧ Labelled (.plain f) t := by
  refine ⟨(Data.plain f).timeline, ?_, labelled_timeline _⟩
  unfold PipeWorld.callPipe
  rw [List.getElem?_eq_getElem hp]
  simp only
  rw [callPipeline_run]
  split <;> rfl

/-- Data given with plain names is always changed: the frame of the caller gets scenario labels. -/
theorem C56_refuted (g : Rng σ) (w : PipeWorld σ) {p : ℕ} (hp : p < w.pipes.length) (f : Scen) (r : Rand σ) :
    (w.callPipe g p (.plain f, r)).2.1 ≠ .plain f := by
  obtain ⟨t, h, _⟩ := C56_plain_partial g w hp f r
  rw [h]
  simp

/-! ### C51: clipping -/

theorem clipValue_spec {lower upper : Option ℚ} (h : ∀ l ∈ lower, ∀ u ∈ upper, l ≤ u) (v : Val) :
    Clipped lower upper v (clipValue lower upper v) := by
  cases v with
  | none => exact .nan
  | some q =>
    cases lower with
    | none =>
      cases upper with
      | none => exact .inside ⟨by simp, by simp⟩
      | some u =>
        simp only [clipValue]
        rcases le_or_gt q u with hq | hq
        · rw [min_eq_right hq]; exact .inside ⟨by simp, by simpa using hq⟩
        · rw [min_eq_left hq.le]; exact .above rfl hq
    | some l =>
      cases upper with
      | none =>
        simp only [clipValue]
        rcases le_or_gt l q with hq | hq
        · rw [max_eq_right hq]; exact .inside ⟨by simpa using hq, by simp⟩
        · rw [max_eq_left hq.le]; exact .below rfl hq
      | some u =>
        have hlu : l ≤ u := h l rfl u rfl
        simp only [clipValue, max_eq_right hlu, min_eq_left hlu]
        rcases le_or_gt l q with hq | hq
        · rw [max_eq_right hq]
          rcases le_or_gt q u with hu | hu
          · rw [min_eq_right hu]; exact .inside ⟨by simpa using hq, by simpa using hu⟩
          · rw [min_eq_left hu.le]; exact .above rfl hu
        · rw [max_eq_left hq.le, min_eq_right hlu]; exact .below rfl hq

theorem clipped_within {lower upper : Option ℚ} (h : ∀ l ∈ lower, ∀ u ∈ upper, l ≤ u) {a b : Val}
    (hc : Clipped lower upper a b) {y : ℚ} (hb : b = some y) : Within lower upper y := by
  cases hc with
  | nan => simp at hb
  | inside hw => simp only [Option.some.injEq] at hb; subst hb; exact hw
  | below hl hx =>
    simp only [Option.some.injEq] at hb; subst hb; subst hl
    exact ⟨by simp, fun u hu => h _ rfl u hu⟩
  | above hu hx =>
    simp only [Option.some.injEq] at hb; subst hb; subst hu
    exact ⟨fun l hl => h l hl _ rfl, by simp⟩

/-- a new stage is found in the session -/
theorem new_stage {w : PipeWorld σ} {st : Stage σ} {outs : Heap} :
    ({ w with outs := outs, stages := w.stages ++ [st] } : PipeWorld σ).stages[w.stages.length]? = some st := by
  simp

/-- Clip gives for every value the value clipped; nothing else changes. -/
theorem C51 (g : Rng σ) {w w' : PipeWorld σ} {lower upper : Option ℚ} {s : ℕ}
    (hb : ∀ l ∈ lower, ∀ u ∈ upper, l ≤ u) (hs : PipeWorld.newClip lower upper w = (.ok s, w'))
    {d : Data} {t : Timeline} (hd : Labelled d t) (r : Rand σ) :
    ∃ t', (w'.callStage g s (d, r)).1 = .ok t' ∧ t'.index = t.index ∧
      List.Forall₂ (fun c c' => c'.1 = c.1 ∧ List.Forall₂ (Clipped lower upper) c.2 c'.2) t.cols t'.cols := by
  have e' := hd.eq
  subst e'
  simp only [PipeWorld.newClip, PipeWorld.newFree, Prod.mk.injEq, Except.ok.injEq] at hs
  obtain ⟨rfl, rfl⟩ := hs
  refine ⟨_, ((C47_stage g _ new_stage (labelled_timeline d) r).2 (by simp [Plug.inputs])).trans rfl,
    rfl, ?_⟩
  simp only
  rw [List.forall₂_map_right_iff]
  refine List.forall₂_same.2 fun c _ => ⟨rfl, ?_⟩
  rw [List.forall₂_map_right_iff]
  exact List.forall₂_same.2 fun v _ => clipValue_spec hb v

/-- a clipped value is within bounds, and clipping it again leaves it as it is; a value within bounds is
left as it is -/
theorem C51_value {lower upper : Option ℚ} (hb : ∀ l ∈ lower, ∀ u ∈ upper, l ≤ u) {a b : Val}
    (h : Clipped lower upper a b) :
    (∀ y, b = some y → Within lower upper y) ∧ (∀ x, a = some x → Within lower upper x → b = a) ∧
      ∀ c, Clipped lower upper b c → c = b := by
  have key : ∀ (x : ℚ) (c : Val), Within lower upper x → Clipped lower upper (some x) c → c = some x := by
    intro x c hw hc
    cases hc with
    | inside _ => rfl
    | below hl hx => subst hl; exact absurd hx (not_lt.2 (hw.1 _ rfl))
    | above hu hx => subst hu; exact absurd hx (not_lt.2 (hw.2 _ rfl))
  refine ⟨fun y hy => clipped_within hb h hy, ?_, ?_⟩
  · rintro x rfl hw
    exact key x b hw h
  · intro c hc
    cases b with
    | none => cases hc; rfl
    | some y => exact key y c (clipped_within hb h rfl) hc

theorem clipped_again {lower upper : Option ℚ} (hb : ∀ l ∈ lower, ∀ u ∈ upper, l ≤ u) {a b c : List Val}
    (h1 : List.Forall₂ (Clipped lower upper) a b) (h2 : List.Forall₂ (Clipped lower upper) b c) :
    c = b := by
  induction h1 generalizing c with
  | nil => cases h2; rfl
  | cons hv _ ih =>
    cases h2 with
    | cons hv' ht => rw [(C51_value hb hv).2.2 _ hv', ih ht]

/-- Clipping twice is the same as once. -/
theorem C51_twice (g : Rng σ) {w w' : PipeWorld σ} {lower upper : Option ℚ} {s : ℕ}
    (hb : ∀ l ∈ lower, ∀ u ∈ upper, l ≤ u) (hs : PipeWorld.newClip lower upper w = (.ok s, w'))
    {d : Data} (r r2 : Rand σ) {t' : Timeline} (h : (w'.callStage g s (d, r)).1 = .ok t') :
    (w'.callStage g s (.multi t', r2)).1 = .ok t' := by
  obtain ⟨t1, h1, hi1, hc1⟩ := C51 g hb hs (labelled_timeline d) r
  rw [h] at h1
  simp only [Except.ok.injEq] at h1
  subst h1
  obtain ⟨t2, h2, hi2, hc2⟩ := C51 g hb hs (.multi t') r2
  rw [h2]
  have : t2.cols = t'.cols := by
    clear h h2 hi1 hi2
    generalize d.timeline.cols = l at hc1
    generalize t'.cols = m at hc1 hc2
    generalize t2.cols = k at hc2
    induction hc1 generalizing k with
    | nil => cases hc2; rfl
    | cons hv _ ih =>
      cases hc2 with
      | cons hv' ht => rw [ih _ ht, Prod.ext hv'.1 (clipped_again hb hv.2 hv'.2)]
  cases t2
  cases t'
  simp only at this hi2
  rw [this, hi2]

/-! ### C52: renaming and dropping -/

theorem not_mem_keys {d : Dict String String} {n : String} (h : ∀ b, (n, b) ∉ d) : n ∉ d.keys := by
  intro hm
  obtain ⟨⟨a, b⟩, h1, rfl⟩ := List.mem_map.1 hm
  exact h b h1

/-- Rename replaces exactly the listed names, in every scenario; the rest stays. -/
theorem C52_rename (g : Rng σ) {w w' : PipeWorld σ} {names : Dict String String} {s : ℕ}
    (hk : names.keys.Nodup) (hs : PipeWorld.newRename names w = (.ok s, w'))
    {d : Data} {t : Timeline} (hd : Labelled d t) (hin : ∀ n m, (n, m) ∈ names → hasColumn d n)
    (r : Rand σ) :
    ∃ t', (w'.callStage g s (d, r)).1 = .ok t' ∧ t'.index = t.index ∧
      List.Forall₂ (fun c c' => c'.1.1 = c.1.1 ∧ c'.2 = c.2 ∧ Renamed names c.1.2 c'.1.2)
        t.cols t'.cols := by
  have e' := hd.eq
  subst e'
  simp only [PipeWorld.newRename, PipeWorld.newRestricted, Prod.mk.injEq, Except.ok.injEq] at hs
  obtain ⟨rfl, rfl⟩ := hs
  refine ⟨_, ((C47_stage g _ new_stage (labelled_timeline d) r).2 ?_).trans rfl, rfl, ?_⟩
  · intro n hn
    obtain ⟨⟨a, b⟩, h1, rfl⟩ := List.mem_map.1 hn
    exact hin a b h1
  · simp only
    rw [List.forall₂_map_right_iff]
    refine List.forall₂_same.2 fun c _ => ⟨rfl, rfl, ?_⟩
    by_cases h : ∀ b, (c.1.2, b) ∉ names
    · rw [renameName_of_not_mem (not_mem_keys h)]
      exact .other h
    · push Not at h
      obtain ⟨b, hb⟩ := h
      rw [renameName_of_mem hk hb]
      exact .listed hb

/-- `ToShuffler` renames one column to `to_shuffler`. -/
theorem C52_to_shuffler (g : Rng σ) {w w' : PipeWorld σ} {name : String} {s : ℕ}
    (hs : PipeWorld.newToShuffler name w = (.ok s, w'))
    {d : Data} {t : Timeline} (hd : Labelled d t) (hin : hasColumn d name) (r : Rand σ) :
    ∃ t', (w'.callStage g s (d, r)).1 = .ok t' ∧ t'.index = t.index ∧
      List.Forall₂ (fun c c' => c'.1.1 = c.1.1 ∧ c'.2 = c.2 ∧ (c.1.2 = name → c'.1.2 = "to_shuffler") ∧
        (c.1.2 ≠ name → c'.1.2 = c.1.2)) t.cols t'.cols := by
  obtain ⟨t', h1, h2, h3⟩ := C52_rename g (by simp [Dict.keys]) hs hd (by
    intro n m h
    simp only [List.mem_singleton, Prod.mk.injEq] at h
    rw [h.1]
    exact hin) r
  refine ⟨t', h1, h2, h3.imp ?_⟩
  rintro c c' ⟨a1, a2, a3⟩
  refine ⟨a1, a2, ?_⟩
  generalize c.1.2 = x at a3 ⊢
  generalize c'.1.2 = y at a3 ⊢
  cases a3 with
  | listed h =>
    simp only [List.mem_singleton, Prod.mk.injEq] at h
    exact ⟨fun _ => h.2, fun hne => absurd h.1 hne⟩
  | other h =>
    refine ⟨fun e => absurd ?_ (h "to_shuffler"), fun _ => rfl⟩
    simp [e]

/-- Drop removes exactly the listed columns, in every scenario; the rest stays, in the same order. -/
theorem C52_drop (g : Rng σ) {w w' : PipeWorld σ} {names : List String} {s : ℕ}
    (hs : PipeWorld.newDrop names w = (.ok s, w'))
    {d : Data} {t : Timeline} (hd : Labelled d t) (hin : ∀ n ∈ names, hasColumn d n) (r : Rand σ) :
    ∃ t', (w'.callStage g s (d, r)).1 = .ok t' ∧ t'.index = t.index ∧ t'.cols.Sublist t.cols ∧
      ∀ c, t'.cols.count c = if c.1.2 ∈ names then 0 else t.cols.count c := by
  have e' := hd.eq
  subst e'
  simp only [PipeWorld.newDrop, PipeWorld.newRestricted, Prod.mk.injEq, Except.ok.injEq] at hs
  obtain ⟨rfl, rfl⟩ := hs
  have hall : (names.all fun n => decide (n ∈ d.timeline.names)) = true := by
    rw [List.all_eq_true]
    intro n hn
    simpa [mem_names, has_timeline] using hin n hn
  refine ⟨⟨d.timeline.index, d.timeline.cols.filter fun c => !decide (c.1.2 ∈ names)⟩,
    ((C47_stage g _ new_stage (labelled_timeline d) r).2 ?_).trans ?_, rfl, ?_, ?_⟩
  · exact hin
  · simp only [dropProcess]
    rw [if_pos hall]
    rfl
  · exact List.filter_sublist
  · intro c
    simp only
    by_cases h : c.1.2 ∈ names
    · rw [if_pos h, List.count_eq_zero]
      simp [h]
    · rw [if_neg h, List.count_filter (by simpa using h)]

/-! ### C50: repeating scenarios -/

theorem get_repeated {β : Type} (l : List β) (n : ℕ) {i : ℕ} (h : i < n * l.length) :
    ((List.replicate n l).flatten)[i]? = l[i % l.length]? := by
  induction n generalizing i with
  | zero => simp at h
  | succ n ih =>
    rw [List.replicate_succ, List.flatten_cons]
    by_cases hi : i < l.length
    · rw [List.getElem?_append_left hi, Nat.mod_eq_of_lt hi]
    · have hm : i < n * l.length + l.length := by rw [← Nat.succ_mul]; exact h
      rw [List.getElem?_append_right (by omega), ih (by omega), Nat.mod_eq_sub_mod (Nat.le_of_not_lt hi)]

theorem get_product {α β γ : Type} (a : List α) (l : List β) (f : α → β → γ) {i : ℕ} (h : i < a.length * l.length) :
    (a.flatMap fun x => l.map (f x))[i]? = (a[i / l.length]?).bind fun x => (l[i % l.length]?).map (f x) := by
  induction a generalizing i with
  | nil => simp at h
  | cons x a ih =>
    rw [List.flatMap_cons]
    by_cases hi : i < l.length
    · rw [List.getElem?_append_left (by simpa using hi), Nat.mod_eq_of_lt hi, Nat.div_eq_of_lt hi]
      simp
    · have hm : i < a.length * l.length + l.length := by
        rw [List.length_cons] at h; rw [← Nat.succ_mul]; exact h
      have hpos : 0 < l.length := by
        rcases Nat.eq_zero_or_pos l.length with e | e
        · rw [e] at h; simp at h
        · exact e
      rw [List.getElem?_append_right (by simp; omega), List.length_map, ih (by omega), ← Nat.mod_eq_sub_mod (Nat.le_of_not_lt hi)]
      have : i / l.length = (i - l.length) / l.length + 1 := by
        rw [Nat.div_eq_sub_div hpos (Nat.le_of_not_lt hi)]
      rw [this, List.getElem?_cons_succ]

/-- C50, exactly, on every frame: the columns are taken one after the other, `n` times, whatever their labels, and the `j`-th one gets the
name number `j` (modulo the number of names) under scenario number `j` divided by the number of names; nothing is given when the numbers of
columns and labels differ. -/
theorem C50_columns (g : Rng σ) {w w' : PipeWorld σ} {n s : ℕ} (hs : PipeWorld.newRepeat n w = (.ok s, w'))
    {d : Data} {t : Timeline} (hd : Labelled d t) (r : Rand σ) :
    (n * t.cols.length ≠ n * (t.scenarios.length * t.names.length) → (w'.callStage g s (d, r)).1 = .error .valueError) ∧
    (n * t.cols.length = n * (t.scenarios.length * t.names.length) → ∃ t', (w'.callStage g s (d, r)).1 = .ok t' ∧
      t'.index.length = t.index.length ∧ t'.cols.length = n * t.cols.length ∧
      ∀ j < n * t.cols.length, ∃ name col, t.names[j % t.names.length]? = some name ∧ t.cols[j % t.cols.length]? = some col ∧
        t'.cols[j]? = some ((Cell.num ((j / t.names.length : ℕ) : ℚ), name), col.2)) := by
  have e' := hd.eq
  subst e'
  simp only [PipeWorld.newRepeat, PipeWorld.newFree, Prod.mk.injEq, Except.ok.injEq] at hs
  obtain ⟨rfl, rfl⟩ := hs
  have hcall := (C47_stage g ({ w with stages := w.stages ++ [⟨.free, repeatProcess n⟩] } : PipeWorld σ) new_stage
    (labelled_timeline d) r).2 (by simp [Plug.inputs])
  have hl1 : ((List.replicate n (d.timeline.cols.map (·.2))).flatten).length = n * d.timeline.cols.length := by simp
  have hl2 : (buildMultiIndex (rangeIndex (d.timeline.scenarios.length * n)) d.timeline.names).length =
      n * (d.timeline.scenarios.length * d.timeline.names.length) := by
    rw [buildMultiIndex_eq]
    simp [List.length_flatMap, rangeIndex, Function.comp_def]
    ring
  constructor
  · intro hne
    refine hcall.trans ?_
    simp only [repeatProcess, hl1, hl2]
    rw [if_neg hne]
    rfl
  · intro heq
    refine ⟨⟨rangeIndex d.timeline.index.length, List.zip (buildMultiIndex (rangeIndex (d.timeline.scenarios.length * n)) d.timeline.names)
      (List.replicate n (d.timeline.cols.map (·.2))).flatten⟩, hcall.trans ?_, ?_⟩
    · simp only [repeatProcess, hl1, hl2]
      rw [if_pos heq]
      rfl
    · refine ⟨by simp [rangeIndex], ?_, ?_⟩
      · simp only [List.length_zip, hl1, hl2]
        omega
      · intro j hj
        have hj2 : j < (d.timeline.scenarios.length * n) * d.timeline.names.length := by
          rw [heq] at hj
          calc j < _ := hj
            _ = _ := by ring
        have hc : 0 < d.timeline.cols.length := by
          rcases Nat.eq_zero_or_pos d.timeline.cols.length with e | e
          · rw [e] at hj; simp at hj
          · exact e
        have hn : 0 < d.timeline.names.length := by
          rcases Nat.eq_zero_or_pos d.timeline.names.length with e | e
          · rw [e] at hj2; simp at hj2
          · exact e
        obtain ⟨name, h1⟩ : ∃ name, d.timeline.names[j % d.timeline.names.length]? = some name :=
          ⟨_, List.getElem?_eq_getElem (Nat.mod_lt _ hn)⟩
        obtain ⟨col, h2⟩ : ∃ col, d.timeline.cols[j % d.timeline.cols.length]? = some col :=
          ⟨_, List.getElem?_eq_getElem (Nat.mod_lt _ hc)⟩
        refine ⟨name, col, h1, h2, ?_⟩
        have hscn : (rangeIndex (d.timeline.scenarios.length * n))[j / d.timeline.names.length]? =
            some (Cell.num ((j / d.timeline.names.length : ℕ) : ℚ)) := by
          have : j / d.timeline.names.length < d.timeline.scenarios.length * n := by
            rw [Nat.div_lt_iff_lt_mul hn]; exact hj2
          simp [rangeIndex, List.getElem?_map, List.getElem?_range this]
        have e1 : (buildMultiIndex (rangeIndex (d.timeline.scenarios.length * n)) d.timeline.names)[j]? =
            some (Cell.num ((j / d.timeline.names.length : ℕ) : ℚ), name) := by
          rw [buildMultiIndex_eq, get_product _ _ _ (by simpa [rangeIndex] using hj2), hscn, h1]
          rfl
        have e2 : ((List.replicate n (d.timeline.cols.map (·.2))).flatten)[j]? = some col.2 := by
          rw [get_repeated _ _ (by simpa using hj), List.length_map, List.getElem?_map, h2]
          rfl
        rw [List.getElem?_zip_eq_some]
        exact ⟨e1, e2⟩


/-- The full claim is for every frame with the same columns for every scenario; it is proved for frames
where the columns come scenario by scenario with the names in the same order: RepeatScenario(n) on `m`
scenarios gives scenarios `0 .. n*m-1`, and scenario `k*m+i` is a copy of the `i`-th. -/
theorem C50_partial (g : Rng σ) {w w' : PipeWorld σ} {n s : ℕ} (hs : PipeWorld.newRepeat n w = (.ok s, w'))
    {d : Data} {t : Timeline} (hd : Labelled d t) {scns names v} (ht : Regular scns names v t)
    (r : Rand σ) :
    ∃ t', (w'.callStage g s (d, r)).1 = .ok t' ∧ t'.index.length = t.index.length ∧
      t'.scenarios = (List.range (n * scns.length)).map (fun j : ℕ => Cell.num (j : ℚ)) ∧
      ∀ k < n, ∀ i scn, scns[i]? = some scn →
        (t'.sub (Cell.num ((k * scns.length + i : ℕ) : ℚ))).cols = (t.sub scn).cols := by
  have e' := hd.eq
  subst e'
  simp only [PipeWorld.newRepeat, PipeWorld.newFree, Prod.mk.injEq, Except.ok.injEq] at hs
  obtain ⟨rfl, rfl⟩ := hs
  obtain ⟨t', h1, h2, h3⟩ := repeatProcess_regular (σ := σ) ht n []
    ⟨g.seed (r.os 0).val, fun i => r.os (i + 1)⟩
  refine ⟨t', ((C47_stage g _ new_stage (labelled_timeline d) r).2 (by simp [Plug.inputs])).trans ?_,
    by rw [h2, rangeIndex_length], ?_, ?_⟩
  · simp only [Plug.outputs]
    rw [h1]
  · rw [h3.scenarios, rangeIndex, Nat.mul_comm]
  · intro k hk i scn hi
    obtain ⟨hlt, hget⟩ := List.getElem?_eq_some_iff.1 hi
    have hj : k * scns.length + i < scns.length * n := by
      calc k * scns.length + i < k * scns.length + scns.length := by omega
        _ = (k + 1) * scns.length := by ring
        _ ≤ n * scns.length := Nat.mul_le_mul_right _ hk
        _ = scns.length * n := Nat.mul_comm _ _
    have hm : Cell.num ((k * scns.length + i : ℕ) : ℚ) ∈ rangeIndex (scns.length * n) :=
      List.mem_map.2 ⟨_, List.mem_range.2 hj, rfl⟩
    have e1 := sub_of_blocks (lab := id) h3.2.2.2 (by simpa using h3.1) hm
    have e2 := sub_of_blocks (lab := id) ht.2.2.2 (by simpa using ht.1)
      (hget ▸ List.getElem_mem hlt : scn ∈ scns)
    simp only [id_eq] at e1 e2
    rw [e1, e2]
    apply List.map_congr_left
    intro m _
    have hmod : (k * scns.length + i) % scns.length = i := by
      rw [Nat.mul_comm, Nat.mul_add_mod, Nat.mod_eq_of_lt hlt]
    simp only [Rat.num_natCast, Int.toNat_natCast, hmod, List.getD_eq_getElem?_getD, hi,
      Option.getD_some]

/-! ### C54: scenario-wise stages -/

/-- The full claim is for every frame; it is proved for frames with rows labelled 0, 1, 2, ... and
functions that keep the labels of rows: for each scenario, the result holds exactly the declared outputs, each
of them as computed by the function from the columns of that scenario only (NaN when it does not compute
it), and no other scenario appears. -/
theorem C54_partial (g : Rng σ) (w : PipeWorld σ) {s : ℕ} {i : List String} {o : Ref}
    {f : Cell → Scen → PyM (Rand σ) Scen}
    (hs : w.stages[s]? = some ⟨.restricted i o, focusProcess f⟩)
    (hf : ∀ scn x r v r', f scn x r = (.ok v, r') → v.index = x.index)
    {d : Data} {t : Timeline} (hd : Labelled d t) (hr : t.index = rangeIndex t.index.length)
    (r : Rand σ) {t' : Timeline} (h : (w.callStage g s (d, r)).1 = .ok t') :
    t'.index = t.index ∧ (∀ scn n v, ((scn, n), v) ∈ t'.cols → scn ∈ t.scenarios) ∧
    ∀ scn ∈ t.scenarios, ∃ r1 v r2, f scn (t.sub scn) r1 = (.ok v, r2) ∧
      (t'.sub scn).cols.map (·.1) = w.outs.getD o [] ∧
      ∀ n c, (n, c) ∈ (t'.sub scn).cols →
        (n, c) ∈ v.cols ∨ (n ∉ v.cols.map (·.1) ∧ c = List.replicate t.index.length none) := by
  have e' := hd.eq
  subst e'
  have hfail : ¬ ∃ n ∈ (Plug.restricted i o).inputs, ¬ hasColumn d n := by
    intro hex
    rw [(C47_stage g w hs (labelled_timeline d) r).1 hex] at h
    simp at h
  push Not at hfail
  rw [(C47_stage g w hs (labelled_timeline d) r).2 hfail] at h
  generalize hr0 : (⟨g.seed (r.os 0).val, fun i => r.os (i + 1)⟩ : Rand σ) = r0 at h
  have hp : focusProcess f (w.outs.getD o []) d.timeline r0 =
      (.ok t', (focusProcess f (w.outs.getD o []) d.timeline r0).2) := Prod.ext h rfl
  refine ⟨by rw [(focusProcess_ok hp).1, ← hr], fun scn n v hm => (focus_scenarios hp hm).1, ?_⟩
  intro scn hm
  obtain ⟨r1, v, r2, hv, ha⟩ := focus_sub hp hm
  refine ⟨r1, v, r2, hv, assignScenario_names ha, ?_⟩
  have hidx : v.index = d.timeline.index := hf _ _ _ _ _ hv
  intro n c hc
  unfold assignScenario at ha
  split at ha
  · simp at ha
  split at ha
  · simp at ha
  simp only at ha
  rw [if_pos (hidx.trans hr)] at ha
  simp only [Except.ok.injEq] at ha
  rw [← ha] at hc
  split at hc
  · exact .inl hc
  · obtain ⟨x, _, e⟩ := List.mem_map.1 hc
    simp only [Prod.mk.injEq] at e
    obtain ⟨rfl, rfl⟩ := e
    rcases hget : Dict.get? v.cols x with _ | w'
    · right
      refine ⟨?_, by rw [hidx]; simp⟩
      intro hm
      have := (Dict.contains_iff v.cols x).2 hm
      simp [Dict.contains, hget] at this
    · left
      exact Dict.mem_of_get? hget

/-- For a function that draws nothing at random, the result for a scenario depends on nothing but the
columns of that scenario: two frames that agree on a scenario (and have the same rows) give the same. -/
theorem C54_independent (g : Rng σ) (w : PipeWorld σ) {s : ℕ} {i : List String} {o : Ref}
    {f : Cell → Scen → Except PyErr Scen}
    (hs : w.stages[s]? = some ⟨.restricted i o, focusProcess fun scn x => PyM.lift (f scn x)⟩)
    {d1 d2 : Data} {t1 t2 : Timeline} (h1 : Labelled d1 t1) (h2 : Labelled d2 t2) (r1 r2 : Rand σ)
    {t1' t2' : Timeline} (hc1 : (w.callStage g s (d1, r1)).1 = .ok t1')
    (hc2 : (w.callStage g s (d2, r2)).1 = .ok t2')
    {scn : Cell} (hm1 : scn ∈ t1.scenarios) (hm2 : scn ∈ t2.scenarios) (hsub : t1.sub scn = t2.sub scn) :
    (t1'.sub scn) = (t2'.sub scn) := by
  have e1 := h1.eq
  have e2 := h2.eq
  subst e1
  subst e2
  have key : ∀ (d : Data) (r : Rand σ) (t' : Timeline), (w.callStage g s (d, r)).1 = .ok t' →
      scn ∈ d.timeline.scenarios → ∃ v, f scn (d.timeline.sub scn) = .ok v ∧
        t'.index = rangeIndex d.timeline.index.length ∧
        assignScenario d.timeline.index.length (w.outs.getD o []) v = .ok (t'.sub scn).cols := by
    intro d r t' h hm
    have hfail : ¬ ∃ n ∈ (Plug.restricted i o).inputs, ¬ hasColumn d n := by
      intro hex
      rw [(C47_stage g w hs (labelled_timeline d) r).1 hex] at h
      simp at h
    push Not at hfail
    rw [(C47_stage g w hs (labelled_timeline d) r).2 hfail] at h
    generalize (⟨g.seed (r.os 0).val, fun i => r.os (i + 1)⟩ : Rand σ) = r0 at h
    have hp : focusProcess (fun scn x => PyM.lift (f scn x)) (w.outs.getD o []) d.timeline r0 =
        (.ok t', (focusProcess (fun scn x => PyM.lift (f scn x)) (w.outs.getD o []) d.timeline r0).2) :=
      Prod.ext h rfl
    obtain ⟨ra, v, rb, hv, ha⟩ := focus_sub hp hm
    simp only [PyM.lift_run, Prod.mk.injEq] at hv
    exact ⟨v, hv.1, (focusProcess_ok hp).1, ha⟩
  obtain ⟨v1, a1, b1, c1⟩ := key d1 r1 t1' hc1 hm1
  obtain ⟨v2, a2, b2, c2⟩ := key d2 r2 t2' hc2 hm2
  have hidx : d1.timeline.index = d2.timeline.index := by
    have := congrArg Scen.index hsub
    exact this
  rw [hsub, a2] at a1
  simp only [Except.ok.injEq] at a1
  subst a1
  rw [hidx, c2] at c1
  simp only [Except.ok.injEq] at c1
  rw [hidx, ← b2] at b1
  show Scen.mk t1'.index (t1'.sub scn).cols = Scen.mk t2'.index (t2'.sub scn).cols
  rw [b1, c1]

end Hadar.Props
