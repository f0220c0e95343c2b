import Verif.Spec.Laws
import Verif.Props.Pipeline

/-!
# C120: stages that can be swapped or put together
-/

namespace Hadar.Props

open Hadar Spec

variable {σ : Type} {g : Rng σ} {w : PipeWorld σ}

/-! ### Stages that draw nothing -/

/-- what the stage gives is a function of the frame -/
def Computes (g : Rng σ) (w : PipeWorld σ) (s : ℕ) (f : Timeline → Except PyErr Timeline) : Prop :=
  ∀ d r, (w.callStage g s (d, r)).1 = f d.timeline

theorem inTurn_one {a : ℕ} {f : Timeline → Except PyErr Timeline} (ha : Computes g w a f) (d : Data) (r : Rand σ) :
    inTurn g w [a] d r = f d.timeline := by
  have h := ha d r
  unfold inTurn
  rcases hc : w.callStage g a (d, r) with ⟨e | t, x⟩
  · rw [hc] at h; exact h
  · rw [hc] at h; exact h

theorem inTurn_two {a b : ℕ} {f f' : Timeline → Except PyErr Timeline} (ha : Computes g w a f) (hb : Computes g w b f')
    (d : Data) (r : Rand σ) : inTurn g w [a, b] d r = (f d.timeline).bind f' := by
  have h := ha d r
  unfold inTurn
  rcases hc : w.callStage g a (d, r) with ⟨e | t, x⟩
  · rw [hc] at h; rw [← h]; rfl
  · rw [hc] at h
    rw [← h]
    exact inTurn_one hb (.multi t) x.2

def clipFrame (lower upper : Option ℚ) (t : Timeline) : Timeline :=
  { t with cols := t.cols.map fun c => (c.1, c.2.map (clipValue lower upper)) }

def renameFrame (names : Dict String String) (t : Timeline) : Timeline :=
  { t with cols := t.cols.map fun c => ((c.1.1, renameName names c.1.2), c.2) }

def dropFrame (names : List String) (t : Timeline) : Timeline :=
  { t with cols := t.cols.filter fun c => !decide (c.1.2 ∈ names) }

/-- the frame must have the columns -/
def needing (names : List String) (t t' : Timeline) : Except PyErr Timeline :=
  if ∀ n ∈ names, n ∈ t.names then .ok t' else .error .valueError

def repeatFrame (n : ℕ) (t : Timeline) : Except PyErr Timeline :=
  if n * t.cols.length = n * (t.scenarios.length * t.names.length) then
    .ok { index := rangeIndex t.index.length,
          cols := List.zip (buildMultiIndex (rangeIndex (t.scenarios.length * n)) t.names) (List.replicate n (t.cols.map (·.2))).flatten }
  else .error .valueError

theorem computable_iff (p : Plug) (names : List String) : p.computable names = true ↔ ∀ n ∈ p.inputs, n ∈ names := by
  simp [Plug.computable, List.all_eq_true]

theorem computes_of {s : ℕ} {st : Stage σ} (hs : w.stages[s]? = some st) {f : Timeline → Timeline}
    (hp : ∀ o t (r : Rand σ), (∀ n ∈ st.plug.inputs, n ∈ t.names) → (st.process o t r).1 = .ok (f t)) :
    Computes g w s fun t => needing st.plug.inputs t (f t) := by
  intro d r
  simp only [PipeWorld.callStage, hs, Stage.call_run, needing, computable_iff]
  split
  · next h => exact hp _ _ _ h
  · rfl

theorem clip_computes {l u : Option ℚ} {a : ℕ} (h : MadeBy (PipeWorld.newClip l u) w a) :
    Computes g w a fun t => .ok (clipFrame l u t) := by
  obtain ⟨w0, w1, h1, h2⟩ := h
  simp only [PipeWorld.newClip, PipeWorld.newFree, Prod.mk.injEq, Except.ok.injEq] at h1
  obtain ⟨rfl, rfl⟩ := h1
  rw [new_stage] at h2
  have := computes_of (g := g) h2.symm (f := clipFrame l u) fun o t r _ => rfl
  simpa [needing, Plug.inputs] using this

theorem rename_computes {names : Dict String String} {a : ℕ} (h : MadeBy (PipeWorld.newRename names) w a) :
    Computes g w a fun t => needing names.keys t (renameFrame names t) := by
  obtain ⟨w0, w1, h1, h2⟩ := h
  simp only [PipeWorld.newRename, PipeWorld.newRestricted, Prod.mk.injEq, Except.ok.injEq] at h1
  obtain ⟨rfl, rfl⟩ := h1
  rw [new_stage] at h2
  exact computes_of (g := g) h2.symm (f := renameFrame names) fun o t r _ => rfl

theorem drop_computes {names : List String} {a : ℕ} (h : MadeBy (PipeWorld.newDrop names) w a) :
    Computes g w a fun t => needing names t (dropFrame names t) := by
  obtain ⟨w0, w1, h1, h2⟩ := h
  simp only [PipeWorld.newDrop, PipeWorld.newRestricted, Prod.mk.injEq, Except.ok.injEq] at h1
  obtain ⟨rfl, rfl⟩ := h1
  rw [new_stage] at h2
  refine computes_of (g := g) h2.symm (f := dropFrame names) fun o t r hn => ?_
  simp only [dropProcess]
  rw [if_pos (by simpa [List.all_eq_true, Plug.inputs] using hn)]
  rfl

theorem repeat_computes {n a : ℕ} (h : MadeBy (PipeWorld.newRepeat n) w a) : Computes g w a (repeatFrame n) := by
  obtain ⟨w0, w1, h1, h2⟩ := h
  simp only [PipeWorld.newRepeat, PipeWorld.newFree, Prod.mk.injEq, Except.ok.injEq] at h1
  obtain ⟨rfl, rfl⟩ := h1
  rw [new_stage] at h2
  intro d r
  simp only [PipeWorld.callStage, ← h2, Stage.call_run, repeatFrame]
  rw [if_pos (by simp [Plug.computable, Plug.inputs])]
  have hl1 : ((List.replicate n (d.timeline.cols.map (·.2))).flatten).length = n * d.timeline.cols.length := by simp
  have hl2 : (buildMultiIndex (rangeIndex (d.timeline.scenarios.length * n)) d.timeline.names).length =
      n * (d.timeline.scenarios.length * d.timeline.names.length) := by
    rw [buildMultiIndex_eq]
    simp [List.length_flatMap, rangeIndex, Function.comp_def]
    ring
  simp only [repeatProcess, hl1, hl2]
  split <;> rfl

/-! ### Frames -/

theorem clipFrame_labels (l u : Option ℚ) (t : Timeline) : (clipFrame l u t).cols.map (·.1) = t.cols.map (·.1) := by
  simp [clipFrame, List.map_map, Function.comp_def]

theorem names_of_labels {t t' : Timeline} (h : t.cols.map (·.1) = t'.cols.map (·.1)) : t.names = t'.names := by
  unfold Timeline.names
  have := congrArg (List.map Prod.snd) h
  simp only [List.map_map, Function.comp_def] at this
  rw [this]

theorem scenarios_of_labels {t t' : Timeline} (h : t.cols.map (·.1) = t'.cols.map (·.1)) : t.scenarios = t'.scenarios := by
  unfold Timeline.scenarios
  have := congrArg (List.map Prod.fst) h
  simp only [List.map_map, Function.comp_def] at this
  rw [this]

theorem clip_names (l u : Option ℚ) (t : Timeline) : (clipFrame l u t).names = t.names := names_of_labels (clipFrame_labels l u t)

theorem clip_rename (l u : Option ℚ) (names : Dict String String) (t : Timeline) :
    clipFrame l u (renameFrame names t) = renameFrame names (clipFrame l u t) := by
  simp [clipFrame, renameFrame, List.map_map, Function.comp_def]

theorem clip_drop (l u : Option ℚ) (names : List String) (t : Timeline) :
    clipFrame l u (dropFrame names t) = dropFrame names (clipFrame l u t) := by
  simp [clipFrame, dropFrame, List.filter_map, Function.comp_def]

/-! ### The laws -/

/-- C120: clipping before or after renaming is the same -/
theorem C120_clip_rename {l u : Option ℚ} {names : Dict String String} {a b : ℕ} (ha : MadeBy (PipeWorld.newClip l u) w a)
    (hb : MadeBy (PipeWorld.newRename names) w b) (d : Data) (r r' : Rand σ) : inTurn g w [a, b] d r = inTurn g w [b, a] d r' := by
  rw [inTurn_two (clip_computes ha) (rename_computes hb), inTurn_two (rename_computes hb) (clip_computes ha)]
  simp only [Except.bind, needing, clip_names]
  split
  · next h => exact congrArg _ (clip_rename l u names d.timeline).symm
  · rfl

/-- C120: clipping before or after dropping columns is the same -/
theorem C120_clip_drop {l u : Option ℚ} {names : List String} {a b : ℕ} (ha : MadeBy (PipeWorld.newClip l u) w a)
    (hb : MadeBy (PipeWorld.newDrop names) w b) (d : Data) (r r' : Rand σ) : inTurn g w [a, b] d r = inTurn g w [b, a] d r' := by
  rw [inTurn_two (clip_computes ha) (drop_computes hb), inTurn_two (drop_computes hb) (clip_computes ha)]
  simp only [Except.bind, needing, clip_names]
  split
  · next h => exact congrArg _ (clip_drop l u names d.timeline).symm
  · rfl

theorem repeat_clip (l u : Option ℚ) (n : ℕ) (t : Timeline) :
    repeatFrame n (clipFrame l u t) = (repeatFrame n t).bind fun t' => .ok (clipFrame l u t') := by
  unfold repeatFrame
  rw [clip_names, scenarios_of_labels (clipFrame_labels l u t)]
  have hl : (clipFrame l u t).cols.length = t.cols.length := by simp [clipFrame]
  rw [hl]
  split
  · simp only [Except.bind]
    congr 1
    simp only [clipFrame, List.map_map, Function.comp_def, Timeline.mk.injEq, true_and]
    have : (List.replicate n (t.cols.map fun c => c.2.map (clipValue l u))).flatten =
        ((List.replicate n (t.cols.map (·.2))).flatten).map (List.map (clipValue l u)) := by
      rw [List.map_flatten, List.map_replicate, List.map_map]
      rfl
    rw [this, List.zip_map_right]
    rfl
  · rfl

/-- C120: clipping before or after repeating scenarios is the same -/
theorem C120_clip_repeat {l u : Option ℚ} {n a b : ℕ} (ha : MadeBy (PipeWorld.newClip l u) w a)
    (hb : MadeBy (PipeWorld.newRepeat n) w b) (d : Data) (r r' : Rand σ) : inTurn g w [a, b] d r = inTurn g w [b, a] d r' := by
  rw [inTurn_two (clip_computes ha) (repeat_computes hb), inTurn_two (repeat_computes hb) (clip_computes ha)]
  exact repeat_clip l u n d.timeline

theorem clipValue_twice {l u l' u' : Option ℚ} (h : ∀ x ∈ l, ∀ y ∈ u, x ≤ y) (h' : ∀ x ∈ l', ∀ y ∈ u', x ≤ y)
    (h1 : ∀ x ∈ l, ∀ y ∈ u', x ≤ y) (h2 : ∀ x ∈ l', ∀ y ∈ u, x ≤ y) (v : Val) :
    clipValue l' u' (clipValue l u v) = clipValue (higher l l') (lower u u') v := by
  cases v with
  | none => rfl
  | some q =>
    rcases l with _ | l <;> rcases u with _ | u <;> rcases l' with _ | l' <;> rcases u' with _ | u' <;>
      simp only [Option.mem_def, Option.some.injEq, forall_eq', reduceCtorEq, false_implies, implies_true] at h h' h1 h2 <;>
      simp only [clipValue, higher, lower, Option.some.injEq]
    all_goals grind

/-- C120: clipping twice is clipping once, to the bounds of both, when some value is within all bounds -/
theorem C120_clips {l u l' u' : Option ℚ} {a b c : ℕ} (ha : MadeBy (PipeWorld.newClip l u) w a)
    (hb : MadeBy (PipeWorld.newClip l' u') w b) (hc : MadeBy (PipeWorld.newClip (higher l l') (lower u u')) w c)
    {q : ℚ} (hq : Within l u q) (hq' : Within l' u' q) (d : Data) (r r' : Rand σ) :
    inTurn g w [a, b] d r = inTurn g w [c] d r' := by
  rw [inTurn_two (clip_computes ha) (clip_computes hb), inTurn_one (clip_computes hc)]
  simp only [Except.bind, clipFrame, List.map_map, Function.comp_def]
  congr
  funext c
  congr
  funext v
  exact clipValue_twice (fun x hx y hy => (hq.1 x hx).trans (hq.2 y hy)) (fun x hx y hy => (hq'.1 x hx).trans (hq'.2 y hy))
    (fun x hx y hy => (hq.1 x hx).trans (hq'.2 y hy)) (fun x hx y hy => (hq'.1 x hx).trans (hq.2 y hy)) v

theorem drop_names {names : List String} {t : Timeline} {m : String} : m ∈ (dropFrame names t).names ↔ m ∈ t.names ∧ m ∉ names := by
  rw [mem_names, mem_names]
  constructor
  · rintro ⟨scn, v, h⟩
    rw [dropFrame, List.mem_filter] at h
    exact ⟨⟨scn, v, h.1⟩, by simpa using h.2⟩
  · rintro ⟨⟨scn, v, h⟩, hm⟩
    exact ⟨scn, v, List.mem_filter.2 ⟨h, by simpa using hm⟩⟩

/-- C120: dropping columns in two stages is dropping them all in one -/
theorem C120_drops {names names' : List String} {a b c : ℕ} (ha : MadeBy (PipeWorld.newDrop names) w a)
    (hb : MadeBy (PipeWorld.newDrop names') w b) (hc : MadeBy (PipeWorld.newDrop (names ++ names')) w c)
    (hd : ∀ n ∈ names, n ∉ names') (d : Data) (r r' : Rand σ) :
    inTurn g w [a, b] d r = inTurn g w [c] d r' := by
  rw [inTurn_two (drop_computes ha) (drop_computes hb), inTurn_one (drop_computes hc)]
  simp only [needing, List.mem_append]
  by_cases h : ∀ n ∈ names, n ∈ d.timeline.names
  · rw [if_pos h]
    simp only [Except.bind]
    by_cases h' : ∀ n ∈ names', n ∈ d.timeline.names
    · rw [if_pos, if_pos]
      · simp only [dropFrame, List.filter_filter]
        congr
        funext c
        simp [List.mem_append, Bool.and_comm]
      · intro n hn
        rcases List.mem_append.1 hn with hn | hn
        · exact h n hn
        · exact h' n hn
      · exact fun n hn => drop_names.2 ⟨h' n hn, fun hm => hd n hm hn⟩
    · rw [if_neg, if_neg]
      · exact fun hh => h' fun n hn => hh n (List.mem_append.2 (.inr hn))
      · exact fun hh => h' fun n hn => (drop_names.1 (hh n hn)).1
  · rw [if_neg h, if_neg fun hh => h fun n hn => hh n (List.mem_append.2 (.inl hn))]
    rfl

/-- C120: a column dropped cannot be dropped again -/
theorem C120_drop_again {names names' : List String} {a b : ℕ} (ha : MadeBy (PipeWorld.newDrop names) w a)
    (hb : MadeBy (PipeWorld.newDrop names') w b) {n : String} (hn : n ∈ names) (hn' : n ∈ names') (d : Data) (r : Rand σ) :
    inTurn g w [a, b] d r = .error .valueError := by
  rw [inTurn_two (drop_computes ha) (drop_computes hb)]
  simp only [needing]
  split
  · simp only [Except.bind]
    rw [if_neg]
    exact fun hh => (drop_names.1 (hh n hn')).2 hn
  · rfl

theorem renameName_of {names : Dict String String} (hk : names.keys.Nodup) {n m : String} (h : Renamed names n m) :
    renameName names n = m := by
  cases h with
  | listed h => exact renameName_of_mem hk h
  | other h =>
    refine renameName_of_not_mem fun hn => ?_
    obtain ⟨⟨a, b⟩, hab, rfl⟩ := List.mem_map.1 hn
    exact h b hab

theorem renamed_renameName {names : Dict String String} (hk : names.keys.Nodup) (n : String) : Renamed names n (renameName names n) := by
  by_cases h : ∃ m, (n, m) ∈ names
  · obtain ⟨m, hm⟩ := h
    rw [renameName_of_mem hk hm]
    exact .listed hm
  · have h' : ∀ m, (n, m) ∉ names := fun m hm => h ⟨m, hm⟩
    rw [renameName_of hk (.other h')]
    exact .other h'

theorem rename_names {names : Dict String String} {t : Timeline} {m : String} :
    m ∈ (renameFrame names t).names ↔ ∃ n ∈ t.names, renameName names n = m := by
  simp only [Timeline.names, mem_unique, renameFrame, List.map_map, List.mem_map, Function.comp_def]
  constructor
  · rintro ⟨c, hc, rfl⟩
    exact ⟨_, ⟨c, hc, rfl⟩, rfl⟩
  · rintro ⟨_, ⟨c, hc, rfl⟩, rfl⟩
    exact ⟨c, hc, rfl⟩

theorem names_column {d : Data} {n : String} : n ∈ d.timeline.names ↔ hasColumn d n := by
  rw [mem_names, has_timeline]

theorem column_of_mem {d : Data} {c : (Cell × String) × List Val} (h : c ∈ d.timeline.cols) : hasColumn d c.1.2 :=
  (has_timeline d c.1.2).1 ⟨c.1.1, c.2, h⟩

theorem renamed_twice {n1 n2 : Dict String String} {a b : ℕ} (ha : MadeBy (PipeWorld.newRename n1) w a)
    (hb : MadeBy (PipeWorld.newRename n2) w b) (hk1 : n1.keys.Nodup) {d : Data}
    (h1 : ∀ n ∈ n1.keys, hasColumn d n) (h2 : ∀ n ∈ n2.keys, ∃ m, hasColumn d m ∧ Renamed n1 m n) (r : Rand σ) :
    inTurn g w [a, b] d r = .ok (renameFrame n2 (renameFrame n1 d.timeline)) := by
  rw [inTurn_two (rename_computes ha) (rename_computes hb)]
  simp only [needing]
  rw [if_pos fun n hn => names_column.2 (h1 n hn)]
  simp only [Except.bind]
  rw [if_pos]
  intro n hn
  obtain ⟨m, hm, hr⟩ := h2 n hn
  exact rename_names.2 ⟨m, names_column.2 hm, renameName_of hk1 hr⟩

/-- C120: renaming twice is renaming once, from the first names to the last -/
theorem C120_renames {n1 n2 n3 : Dict String String} {a b c : ℕ} (ha : MadeBy (PipeWorld.newRename n1) w a)
    (hb : MadeBy (PipeWorld.newRename n2) w b) (hc : MadeBy (PipeWorld.newRename n3) w c) (hk1 : n1.keys.Nodup)
    (hk2 : n2.keys.Nodup) (hk3 : n3.keys.Nodup) {d : Data} (h1 : ∀ n ∈ n1.keys, hasColumn d n)
    (h2 : ∀ n ∈ n2.keys, ∃ m, hasColumn d m ∧ Renamed n1 m n) (h3 : ∀ n ∈ n3.keys, hasColumn d n)
    (h : ∀ n x y, hasColumn d n → Renamed n1 n x → Renamed n2 x y → Renamed n3 n y) (r r' : Rand σ) :
    ∃ t, inTurn g w [a, b] d r = .ok t ∧ inTurn g w [c] d r' = .ok t := by
  refine ⟨_, renamed_twice ha hb hk1 h1 h2 r, ?_⟩
  rw [inTurn_one (rename_computes hc)]
  simp only [needing]
  rw [if_pos fun n hn => names_column.2 (h3 n hn)]
  simp only [renameFrame, List.map_map, Function.comp_def, Except.ok.injEq, Timeline.mk.injEq, true_and]
  refine List.map_congr_left fun c hc => ?_
  rw [renameName_of hk3 (h _ _ _ (column_of_mem hc) (renamed_renameName hk1 _) (renamed_renameName hk2 _))]

/-- C120: renaming back gives the data back -/
theorem C120_back {n1 n2 : Dict String String} {a b : ℕ} (ha : MadeBy (PipeWorld.newRename n1) w a)
    (hb : MadeBy (PipeWorld.newRename n2) w b) (hk1 : n1.keys.Nodup) (hk2 : n2.keys.Nodup) {d : Data}
    (h1 : ∀ n ∈ n1.keys, hasColumn d n) (h2 : ∀ n ∈ n2.keys, ∃ m, hasColumn d m ∧ Renamed n1 m n)
    (h : ∀ n x y, hasColumn d n → Renamed n1 n x → Renamed n2 x y → y = n) (r : Rand σ) :
    ∃ t, Labelled d t ∧ inTurn g w [a, b] d r = .ok t := by
  refine ⟨_, labelled_timeline d, (renamed_twice ha hb hk1 h1 h2 r).trans (congrArg _ ?_)⟩
  simp only [renameFrame, List.map_map, Function.comp_def]
  have : d.timeline.cols.map (fun c => ((c.1.1, renameName n2 (renameName n1 c.1.2)), c.2)) = d.timeline.cols := by
    conv_rhs => rw [← List.map_id d.timeline.cols]
    refine List.map_congr_left fun c hc => ?_
    rw [h _ _ _ (column_of_mem hc) (renamed_renameName hk1 _) (renamed_renameName hk2 _)]
    rfl
  rw [this]

/-! ### Repeating -/

theorem block_length (L : List Cell) (names : List String) : (buildMultiIndex L names).length = L.length * names.length := by
  rw [buildMultiIndex_eq]
  simp [List.length_flatMap, Function.comp_def]

theorem range_length (n : ℕ) : (rangeIndex n).length = n := by simp [rangeIndex]

theorem range_nodup (n : ℕ) : (rangeIndex n).Nodup := by
  unfold rangeIndex
  refine List.Nodup.map (fun a b h => ?_) List.nodup_range
  simpa using h

theorem unique_nodup' {α : Type} [DecidableEq α] (l : List α) : (unique l).Nodup := by
  induction l with
  | nil => exact .nil
  | cons a l ih =>
    rw [unique]
    exact List.nodup_cons.2 ⟨by simp, ih.filter _⟩

theorem unique_map {α β : Type} [DecidableEq α] [DecidableEq β] {f : α → β} {l : List α}
    (hf : ∀ x ∈ l, ∀ y ∈ l, f x = f y → x = y) : unique (l.map f) = (unique l).map f := by
  induction l with
  | nil => rfl
  | cons a l ih =>
    rw [List.map_cons, unique, unique, List.map_cons, ih fun x hx y hy => hf x (.tail _ hx) y (.tail _ hy), List.filter_map]
    congr 2
    refine List.filter_congr fun x hx => ?_
    have hx := (mem_unique x l).1 hx
    have := hf x (.tail _ hx) a (.head _)
    simp only [Function.comp_def, decide_eq_decide]
    constructor
    · rintro h rfl; exact h rfl
    · exact fun h h' => h (this h')

/-- the labels and columns of a frame with its scenarios repeated -/
theorem repeatFrame_ok {n : ℕ} {t t' : Timeline} (h : repeatFrame n t = .ok t') :
    n * t.cols.length = n * (t.scenarios.length * t.names.length) ∧
    t'.index = rangeIndex t.index.length ∧ t'.cols.length = n * t.cols.length ∧
    t'.cols.map (·.1) = buildMultiIndex (rangeIndex (t.scenarios.length * n)) t.names ∧
    t'.cols.map (·.2) = (List.replicate n (t.cols.map (·.2))).flatten := by
  unfold repeatFrame at h
  split at h
  · next he =>
    cases h
    have hl : (buildMultiIndex (rangeIndex (t.scenarios.length * n)) t.names).length =
        ((List.replicate n (t.cols.map (·.2))).flatten).length := by
      rw [block_length, range_length]
      simp [he]
      ring
    refine ⟨he, rfl, ?_, List.map_fst_zip hl.le, List.map_snd_zip hl.ge⟩
    simp [List.length_zip, hl]
  · cases h

theorem empty_names {t : Timeline} (h : t.cols = []) : t.names = [] ∧ t.scenarios = [] := by
  simp [Timeline.names, Timeline.scenarios, h, unique]

theorem names_ne {t : Timeline} (h : t.cols ≠ []) : t.names ≠ [] ∧ t.scenarios ≠ [] := by
  obtain ⟨c, hc⟩ := List.exists_mem_of_ne_nil _ h
  constructor
  · exact List.ne_nil_of_mem ((mem_unique _ _).2 (List.mem_map.2 ⟨c, hc, rfl⟩))
  · exact List.ne_nil_of_mem ((mem_unique _ _).2 (List.mem_map.2 ⟨c, hc, rfl⟩))

theorem repeat_labels {n : ℕ} (hn : 0 < n) {t t' : Timeline} (h : repeatFrame n t = .ok t') :
    t'.names = t.names ∧ t'.scenarios.length = t.scenarios.length * n := by
  obtain ⟨-, -, hl, hc, -⟩ := repeatFrame_ok h
  by_cases h0 : t.cols = []
  · have h0' : t'.cols = [] := by
      rw [h0] at hl
      simpa using hl
    obtain ⟨e1, e2⟩ := empty_names h0
    obtain ⟨e1', e2'⟩ := empty_names h0'
    rw [e1, e2, e1', e2']
    simp
  · obtain ⟨e1, e2⟩ := names_ne h0
    have hr : rangeIndex (t.scenarios.length * n) ≠ [] := by
      intro hh
      have := range_length (t.scenarios.length * n)
      rw [hh] at this
      rcases Nat.mul_eq_zero.1 this.symm with h | h
      · exact e2 (List.length_eq_zero_iff.1 h)
      · omega
    rw [buildMultiIndex_eq] at hc
    constructor
    · have := congrArg (fun l => unique (l.map Prod.snd)) hc
      simp only [List.map_map, List.map_flatMap, Function.comp_def, List.map_id'] at this
      rw [unique_same _ _ hr (show t.names.Nodup from unique_nodup' _)] at this
      exact this
    · have := congrArg (fun l => unique (l.map Prod.fst)) hc
      simp only [List.map_map, List.map_flatMap, Function.comp_def] at this
      rw [unique_blocks _ _ e1 (range_nodup _)] at this
      have := congrArg List.length this
      rwa [range_length] at this

theorem replicate_flatten {α : Type} (m n : ℕ) (l : List α) :
    (List.replicate n (List.replicate m l).flatten).flatten = (List.replicate (m * n) l).flatten := by
  induction n with
  | zero => simp
  | succ n ih =>
    rw [List.replicate_succ, List.flatten_cons, ih, Nat.mul_succ, Nat.add_comm, List.replicate_add, List.flatten_append]

/-- C120: repeating scenarios twice is repeating them once -/
theorem C120_repeats {m n a b c : ℕ} (ha : MadeBy (PipeWorld.newRepeat m) w a) (hb : MadeBy (PipeWorld.newRepeat n) w b)
    (hc : MadeBy (PipeWorld.newRepeat (m * n)) w c) (hn : 0 < n) (d : Data) (r r' : Rand σ) :
    inTurn g w [a, b] d r = inTurn g w [c] d r' := by
  rw [inTurn_two (repeat_computes ha) (repeat_computes hb), inTurn_one (repeat_computes hc)]
  generalize d.timeline = t
  rcases h : repeatFrame m t with e | t'
  · unfold repeatFrame at h ⊢
    split at h
    · cases h
    · next he =>
      cases h
      rw [if_neg]
      · rfl
      · intro h
        apply he
        rw [Nat.mul_right_comm, Nat.mul_right_comm m n] at h
        exact Nat.eq_of_mul_eq_mul_right hn h
  · obtain ⟨he, hi, hl, -, hv⟩ := repeatFrame_ok h
    simp only [Except.bind]
    unfold repeatFrame
    have hd : m * n * t.cols.length = m * n * (t.scenarios.length * t.names.length) := by
      rw [Nat.mul_right_comm, he]; ring
    rw [hi, hl, hv, range_length, replicate_flatten, if_pos hd]
    rcases Nat.eq_zero_or_pos m with rfl | hm
    · have : t'.cols = [] := by simpa using hl
      obtain ⟨e1, e2⟩ := empty_names this
      simp [e1, e2]
    · obtain ⟨e1, e2⟩ := repeat_labels hm h
      rw [e1, e2, if_pos (by rw [he]; ring), Nat.mul_assoc]

/-- C120: renaming before or after repeating scenarios is the same, unless two columns get the same name -/
theorem C120_rename_repeat {names : Dict String String} {n a b : ℕ} (ha : MadeBy (PipeWorld.newRename names) w a)
    (hb : MadeBy (PipeWorld.newRepeat n) w b) (hn : 0 < n) (hk : names.keys.Nodup) {d : Data}
    (hi : ∀ x y z, hasColumn d x → hasColumn d y → Renamed names x z → Renamed names y z → x = y) (r r' : Rand σ) :
    inTurn g w [a, b] d r = inTurn g w [b, a] d r' := by
  rw [inTurn_two (rename_computes ha) (repeat_computes hb), inTurn_two (repeat_computes hb) (rename_computes ha)]
  have hi' : ∀ x ∈ d.timeline.names, ∀ y ∈ d.timeline.names, renameName names x = renameName names y → x = y :=
    fun x hx y hy he => hi x y _ (names_column.1 hx) (names_column.1 hy) (renamed_renameName hk x)
      (by rw [he]; exact renamed_renameName hk y)
  generalize d.timeline = t at hi' ⊢
  have hren : (renameFrame names t).names = t.names.map (renameName names) := by
    unfold Timeline.names at hi' ⊢
    rw [← unique_map fun x hx y hy => hi' x ((mem_unique _ _).2 hx) y ((mem_unique _ _).2 hy)]
    simp [renameFrame, Function.comp_def]
  have hscn : (renameFrame names t).scenarios = t.scenarios := by
    simp [Timeline.scenarios, renameFrame, Function.comp_def]
  have hrep : repeatFrame n (renameFrame names t) = (repeatFrame n t).bind fun t' => .ok (renameFrame names t') := by
    unfold repeatFrame
    rw [hren, hscn]
    have hl : (renameFrame names t).cols.length = t.cols.length := by simp [renameFrame]
    rw [hl, List.length_map]
    split
    · simp only [Except.bind, Except.ok.injEq, renameFrame, List.map_map, Function.comp_def, Timeline.mk.injEq, true_and]
      rw [buildMultiIndex_eq, buildMultiIndex_eq]
      have : ((rangeIndex (t.scenarios.length * n)).flatMap fun s => (t.names.map (renameName names)).map fun m => (s, m)) =
          ((rangeIndex (t.scenarios.length * n)).flatMap fun s => t.names.map fun m => (s, m)).map
            fun c => (c.1, renameName names c.2) := by
        simp only [List.map_flatMap, List.map_map, Function.comp_def]
      rw [this, List.zip_map_left]
      rfl
    · rfl
  rcases h : repeatFrame n t with e | t'
  · have he : e = .valueError := by
      unfold repeatFrame at h
      split at h <;> cases h
      rfl
    subst he
    simp only [needing]
    split
    · simp only [Except.bind, hrep, h]
    · rfl
  · simp only [needing]
    by_cases hh : ∀ n ∈ names.keys, n ∈ t.names
    · rw [if_pos hh]
      show repeatFrame n (renameFrame names t) = if _ then _ else _
      rw [if_pos (by rw [(repeat_labels hn h).1]; exact hh), hrep, h]
      rfl
    · rw [if_neg hh]
      show _ = if _ then _ else _
      rw [if_neg (by rw [(repeat_labels hn h).1]; exact hh)]
      rfl

/-! ### Cases -/

/-- stages of a session, made one after the other -/
def lawStages : List (PyM (PipeWorld σ) ℕ) :=
  [PipeWorld.newClip (some 0) none, PipeWorld.newRename [("load", "quantity")], PipeWorld.newDrop ["wind"], PipeWorld.newRepeat 2,
    PipeWorld.newClip (some (-1)) (some 5), PipeWorld.newClip (some 0) (some 5), PipeWorld.newDrop ["load"],
    PipeWorld.newDrop ["wind", "load"], PipeWorld.newRename [("quantity", "load")], PipeWorld.newRename [("quantity", "mw")],
    PipeWorld.newRename [("load", "mw")], PipeWorld.newRepeat 3, PipeWorld.newRepeat 6]

/-- the session after making stages -/
def makeAll (w : PipeWorld σ) (l : List (PyM (PipeWorld σ) ℕ)) : PipeWorld σ := l.foldl (fun w mk => (mk w).2) w

def lawWorld : PipeWorld σ := makeAll PipeWorld.empty lawStages

/-- making the stage appends it -/
def Appends (mk : PyM (PipeWorld σ) ℕ) : Prop :=
  ∀ w, ∃ st, (mk w).1 = .ok w.stages.length ∧ (mk w).2.stages = w.stages ++ [st]

theorem makeAll_stages {l : List (PyM (PipeWorld σ) ℕ)} (h : ∀ mk ∈ l, Appends mk) (w : PipeWorld σ) :
    ∃ sts, (makeAll w l).stages = w.stages ++ sts ∧ sts.length = l.length := by
  induction l generalizing w with
  | nil => exact ⟨[], by simp [makeAll], rfl⟩
  | cons mk l ih =>
    obtain ⟨st, -, h2⟩ := h mk List.mem_cons_self w
    obtain ⟨sts, h3, h4⟩ := ih (fun m hm => h m (.tail _ hm)) (mk w).2
    refine ⟨st :: sts, ?_, by simp [h4]⟩
    show (makeAll (mk w).2 l).stages = _
    rw [h3, h2, List.append_assoc]
    rfl

theorem made_nth {l : List (PyM (PipeWorld σ) ℕ)} (h : ∀ mk ∈ l, Appends mk) {i : ℕ} {mk : PyM (PipeWorld σ) ℕ}
    (hi : l[i]? = some mk) : MadeBy mk (makeAll PipeWorld.empty l) i := by
  obtain ⟨hlt, he⟩ := List.getElem?_eq_some_iff.1 hi
  have hsplit : l = l.take i ++ mk :: l.drop (i + 1) := by
    rw [← he, List.getElem_cons_drop, List.take_append_drop]
  obtain ⟨sts, h1, h2⟩ := makeAll_stages (l := l.take i) (fun m hm => h m (List.mem_of_mem_take hm)) PipeWorld.empty
  obtain ⟨st, h3, h4⟩ := h mk (List.mem_of_getElem? hi) (makeAll PipeWorld.empty (l.take i))
  obtain ⟨sts', h5, -⟩ := makeAll_stages (l := l.drop (i + 1)) (fun m hm => h m (List.mem_of_mem_drop hm))
    (mk (makeAll PipeWorld.empty (l.take i))).2
  have hlen : (makeAll PipeWorld.empty (l.take i)).stages.length = i := by
    rw [h1]
    simp only [List.length_append, h2, List.length_take]
    simp [PipeWorld.empty]
    omega
  refine ⟨makeAll PipeWorld.empty (l.take i), (mk (makeAll PipeWorld.empty (l.take i))).2, ?_, ?_⟩
  · exact Prod.ext (by rw [h3, hlen]) rfl
  · have hall : makeAll PipeWorld.empty l = makeAll (mk (makeAll PipeWorld.empty (l.take i))).2 (l.drop (i + 1)) := by
      conv_lhs => rw [hsplit]
      simp only [makeAll, List.foldl_append, List.foldl_cons]
    rw [hall, h5, List.getElem?_append_left]
    rw [h4, List.length_append, hlen]
    simp

theorem law_appends : ∀ mk ∈ lawStages (σ := σ), Appends mk := by
  intro mk h
  simp only [lawStages, List.mem_cons, List.not_mem_nil, or_false] at h
  rcases h with rfl | rfl | rfl | rfl | rfl | rfl | rfl | rfl | rfl | rfl | rfl | rfl | rfl <;> exact fun w => ⟨_, rfl, rfl⟩

def lawData : Data := .plain ⟨[.num 0, .num 1], [("load", [some (-3), some 2]), ("wind", [some 7, none])]⟩

theorem law0 : MadeBy (PipeWorld.newClip (some 0) none) (lawWorld (σ := σ)) 0 := made_nth law_appends rfl
theorem law1 : MadeBy (PipeWorld.newRename [("load", "quantity")]) (lawWorld (σ := σ)) 1 := made_nth law_appends rfl
theorem law2 : MadeBy (PipeWorld.newDrop ["wind"]) (lawWorld (σ := σ)) 2 := made_nth law_appends rfl
theorem law3 : MadeBy (PipeWorld.newRepeat 2) (lawWorld (σ := σ)) 3 := made_nth law_appends rfl
theorem law4 : MadeBy (PipeWorld.newClip (some (-1)) (some 5)) (lawWorld (σ := σ)) 4 := made_nth law_appends rfl
theorem law5 : MadeBy (PipeWorld.newClip (higher (some 0) (some (-1))) (lower none (some 5))) (lawWorld (σ := σ)) 5 := by
  have h1 : higher (some 0) (some (-1)) = some 0 := by decide +kernel
  have h2 : lower none (some 5) = some 5 := rfl
  rw [h1, h2]
  exact made_nth law_appends rfl
theorem law6 : MadeBy (PipeWorld.newDrop ["load"]) (lawWorld (σ := σ)) 6 := made_nth law_appends rfl
theorem law7 : MadeBy (PipeWorld.newDrop (["wind"] ++ ["load"])) (lawWorld (σ := σ)) 7 := made_nth law_appends rfl
theorem law8 : MadeBy (PipeWorld.newRename [("quantity", "load")]) (lawWorld (σ := σ)) 8 := made_nth law_appends rfl
theorem law9 : MadeBy (PipeWorld.newRename [("quantity", "mw")]) (lawWorld (σ := σ)) 9 := made_nth law_appends rfl
theorem law10 : MadeBy (PipeWorld.newRename [("load", "mw")]) (lawWorld (σ := σ)) 10 := made_nth law_appends rfl
theorem law11 : MadeBy (PipeWorld.newRepeat 3) (lawWorld (σ := σ)) 11 := made_nth law_appends rfl
theorem law12 : MadeBy (PipeWorld.newRepeat (2 * 3)) (lawWorld (σ := σ)) 12 := made_nth law_appends rfl

theorem law_columns {n : String} (h : hasColumn lawData n) : n = "load" ∨ n = "wind" := by
  obtain ⟨v, h⟩ := h
  simp only [List.mem_cons, Prod.mk.injEq, List.not_mem_nil, or_false] at h
  rcases h with h | h
  · exact .inl h.1
  · exact .inr h.1

theorem law_load : hasColumn lawData "load" := ⟨_, List.mem_cons_self⟩

theorem law_renamed {a b n m : String} (h : Renamed [(a, b)] n m) : (n = a ∧ m = b) ∨ (n ≠ a ∧ m = n) := by
  cases h with
  | listed h =>
    simp only [List.mem_cons, Prod.mk.injEq, List.not_mem_nil, or_false] at h
    exact .inl h
  | other h =>
    refine .inr ⟨fun e => h b ?_, rfl⟩
    rw [e]
    exact List.mem_cons_self

example (d : Data) (r r' : Rand σ) : inTurn g lawWorld [0, 1] d r = inTurn g lawWorld [1, 0] d r' := C120_clip_rename law0 law1 d r r'

example (d : Data) (r r' : Rand σ) : inTurn g lawWorld [0, 2] d r = inTurn g lawWorld [2, 0] d r' := C120_clip_drop law0 law2 d r r'

example (d : Data) (r r' : Rand σ) : inTurn g lawWorld [0, 3] d r = inTurn g lawWorld [3, 0] d r' := C120_clip_repeat law0 law3 d r r'

example (d : Data) (r r' : Rand σ) : inTurn g lawWorld [0, 4] d r = inTurn g lawWorld [5] d r' :=
  C120_clips law0 law4 law5 (q := 3) ⟨by simp, by simp⟩ ⟨by norm_num, by norm_num⟩ d r r'

example (d : Data) (r r' : Rand σ) : inTurn g lawWorld [2, 6] d r = inTurn g lawWorld [7] d r' :=
  C120_drops law2 law6 law7 (by decide) d r r'

example (d : Data) (r : Rand σ) : inTurn g lawWorld [2, 7] d r = .error .valueError :=
  C120_drop_again law2 law7 (n := "wind") (by decide) (by decide) d r

example (r r' : Rand σ) : ∃ t, inTurn g lawWorld [1, 9] lawData r = .ok t ∧ inTurn g lawWorld [10] lawData r' = .ok t := by
  refine C120_renames law1 law9 law10 (by decide) (by decide) (by decide) ?_ ?_ ?_ ?_ r r'
  · intro n hn
    rw [List.mem_singleton.1 hn]
    exact law_load
  · intro n hn
    rw [List.mem_singleton.1 hn]
    exact ⟨"load", law_load, .listed List.mem_cons_self⟩
  · intro n hn
    rw [List.mem_singleton.1 hn]
    exact law_load
  · intro n x y hn hx hy
    rcases law_columns hn with rfl | rfl
    · rcases law_renamed hx with ⟨-, rfl⟩ | ⟨h, -⟩
      · rcases law_renamed hy with ⟨-, rfl⟩ | ⟨h, -⟩
        · exact .listed List.mem_cons_self
        · exact absurd rfl h
      · exact absurd rfl h
    · rcases law_renamed hx with ⟨h, -⟩ | ⟨-, rfl⟩
      · exact absurd h (by decide)
      · rcases law_renamed hy with ⟨h, -⟩ | ⟨-, rfl⟩
        · exact absurd h (by decide)
        · exact .other (by simp)

example (r : Rand σ) : ∃ t, Labelled lawData t ∧ inTurn g lawWorld [1, 8] lawData r = .ok t := by
  refine C120_back law1 law8 (by decide) (by decide) ?_ ?_ ?_ r
  · intro n hn
    rw [List.mem_singleton.1 hn]
    exact law_load
  · intro n hn
    rw [List.mem_singleton.1 hn]
    exact ⟨"load", law_load, .listed List.mem_cons_self⟩
  · intro n x y hn hx hy
    rcases law_columns hn with rfl | rfl
    · rcases law_renamed hx with ⟨-, rfl⟩ | ⟨h, -⟩
      · rcases law_renamed hy with ⟨-, rfl⟩ | ⟨h, -⟩
        · rfl
        · exact absurd rfl h
      · exact absurd rfl h
    · rcases law_renamed hx with ⟨h, -⟩ | ⟨-, rfl⟩
      · exact absurd h (by decide)
      · rcases law_renamed hy with ⟨h, -⟩ | ⟨-, rfl⟩
        · exact absurd h (by decide)
        · rfl

example (d : Data) (r r' : Rand σ) : inTurn g lawWorld [3, 11] d r = inTurn g lawWorld [12] d r' :=
  C120_repeats law3 law11 law12 (by decide) d r r'

example (r r' : Rand σ) : inTurn g lawWorld [1, 3] lawData r = inTurn g lawWorld [3, 1] lawData r' := by
  refine C120_rename_repeat law1 law3 (by decide) (by decide) ?_ r r'
  intro x y z hx hy hxz hyz
  rcases law_columns hx with rfl | rfl <;> rcases law_columns hy with rfl | rfl
  · rfl
  · rcases law_renamed hxz with ⟨-, rfl⟩ | ⟨h, -⟩
    · rcases law_renamed hyz with ⟨h, -⟩ | ⟨-, h⟩
      · exact absurd h (by decide)
      · exact absurd h (by decide)
    · exact absurd rfl h
  · rcases law_renamed hyz with ⟨-, rfl⟩ | ⟨h, -⟩
    · rcases law_renamed hxz with ⟨h, -⟩ | ⟨-, h⟩
      · exact absurd h (by decide)
      · exact absurd h (by decide)
    · exact absurd rfl h
  · rfl

end Hadar.Props
