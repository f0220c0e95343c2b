import Verif.Proofs.Plugs
import Mathlib.Tactic.Ring

/-!
# Lemmas on the stages of the library
-/

namespace Hadar

open Spec

/-! ### Clip -/

theorem clipProcess_names {σ : Type} {l u : Option ℚ} {o : List String} {t t' : Timeline}
    {r r' : Rand σ} (h : clipProcess l u o t r = (.ok t', r')) (n : String) : has t n → has t' n := by
  simp only [clipProcess, PyM.pure, Prod.mk.injEq, Except.ok.injEq] at h
  obtain ⟨rfl, rfl⟩ := h
  rintro ⟨scn, v, hc⟩
  exact ⟨scn, _, List.mem_map.2 ⟨_, hc, rfl⟩⟩

/-! ### Rename -/

theorem renameName_of_not_mem {d : Dict String String} {n : String} (h : n ∉ d.keys) :
    renameName d n = n := by
  have : d.get? n = none := by
    induction d with
    | nil => rfl
    | cons a d ih =>
      simp only [Dict.keys, List.map_cons, List.mem_cons, not_or] at h
      simp only [Dict.get?]
      rw [if_neg (fun e => h.1 e.symm)]
      exact ih h.2
  simp [renameName, this]

theorem renameName_of_mem {d : Dict String String} {n m : String} (hd : d.keys.Nodup)
    (h : (n, m) ∈ d) : renameName d n = m := by
  have : d.get? n = some m := by
    induction d with
    | nil => simp at h
    | cons a d ih =>
      simp only [Dict.keys, List.map_cons, List.nodup_cons] at hd
      rcases List.mem_cons.1 h with rfl | h
      · simp [Dict.get?]
      · have hne : a.1 ≠ n := by
          rintro rfl
          exact hd.1 (List.mem_map.2 ⟨_, h, rfl⟩)
        simp only [Dict.get?]
        rw [if_neg hne]
        exact ih hd.2 h
  simp [renameName, this]

theorem renameProcess_has {σ : Type} {d : Dict String String} {o : List String} {t t' : Timeline}
    {r r' : Rand σ} (h : renameProcess d o t r = (.ok t', r')) {n : String} (hn : has t n) :
    has t' (renameName d n) := by
  simp only [renameProcess, PyM.pure, Prod.mk.injEq, Except.ok.injEq] at h
  obtain ⟨rfl, rfl⟩ := h
  obtain ⟨scn, v, hc⟩ := hn
  exact ⟨scn, v, List.mem_map.2 ⟨_, hc, rfl⟩⟩

theorem honest_rename {σ : Type} {h : Heap} {d : Dict String String} {o : Ref} (hd : d.keys.Nodup)
    (ho : h.getD o [] = d.map (·.2)) :
    Honest h (⟨.restricted d.keys o, renameProcess d⟩ : Stage σ) := by
  simp only [Honest, ho]
  intro extra t r t' r' hex hin hp n hn
  rcases List.mem_append.1 hn with hn | hn
  · obtain ⟨⟨k, v⟩, hm, rfl⟩ := List.mem_map.1 hn
    have := renameProcess_has hp (hin k (List.mem_map.2 ⟨_, hm, rfl⟩))
    rwa [renameName_of_mem hd hm] at this
  · have := renameProcess_has hp (hex n hn).1
    rwa [renameName_of_not_mem (hex n hn).2] at this

/-! ### Drop -/

theorem honest_drop {σ : Type} {h : Heap} {names : List String} {o : Ref}
    (ho : h.getD o [] = []) :
    Honest h (⟨.restricted names o, dropProcess names⟩ : Stage σ) := by
  simp only [Honest, ho]
  intro extra t r t' r' hex hin hp n hn
  simp only [List.nil_append] at hn
  unfold dropProcess at hp
  split at hp
  · simp only [PyM.pure, Prod.mk.injEq, Except.ok.injEq] at hp
    obtain ⟨rfl, rfl⟩ := hp
    obtain ⟨⟨scn, v, hc⟩, hni⟩ := hex n hn
    exact ⟨scn, v, List.mem_filter.2 ⟨hc, by simpa using hni⟩⟩
  · simp [PyM.raise] at hp

/-! ### Lists of labels -/

theorem rangeIndex_length (n : ℕ) : (rangeIndex n).length = n := by simp [rangeIndex]

theorem rangeIndex_nodup (n : ℕ) : (rangeIndex n).Nodup := by
  refine List.Nodup.map ?_ List.nodup_range
  intro a b h
  simpa using h

theorem buildMultiIndex_eq (scns : List Cell) (names : List String) :
    buildMultiIndex scns names = scns.flatMap fun s => names.map fun n => (s, n) := by
  unfold buildMultiIndex
  induction scns with
  | nil => simp
  | cons s scns ih =>
    simp only [List.flatMap_cons, List.length_cons, List.replicate_succ, List.flatten_cons]
    rw [List.zip_append (by simp), ih]
    congr 1
    clear ih
    induction names with
    | nil => rfl
    | cons n names ih => simp [List.replicate_succ, ih]

/-! ### RepeatScenario -/

theorem honest_repeat {σ : Type} {h : Heap} {n : ℕ} (hn : n ≠ 0) :
    Honest h (⟨.free, repeatProcess n⟩ : Stage σ) := by
  simp only [Honest]
  intro t r t' r' hp m hm
  unfold repeatProcess at hp
  split at hp
  case isFalse => simp [PyM.raise] at hp
  case isTrue hlen =>
    simp only [PyM.pure, Prod.mk.injEq, Except.ok.injEq] at hp
    obtain ⟨rfl, rfl⟩ := hp
    obtain ⟨scn, v, hc⟩ := hm
    have hs : t.scenarios.length ≠ 0 := by
      intro h0
      have := (mem_scenarios t scn).2 ⟨m, v, hc⟩
      rw [List.length_eq_zero_iff.1 h0] at this
      simp at this
    have hpos : 0 < t.scenarios.length * n := Nat.pos_of_ne_zero (Nat.mul_ne_zero hs hn)
    have hmem : (Cell.num ((0 : ℕ) : ℚ), m) ∈
        buildMultiIndex (rangeIndex (t.scenarios.length * n)) t.names := by
      rw [buildMultiIndex_eq, List.mem_flatMap]
      refine ⟨Cell.num ((0 : ℕ) : ℚ), ?_, List.mem_map.2 ⟨m, (mem_names t m).2 ⟨scn, v, hc⟩, rfl⟩⟩
      exact List.mem_map.2 ⟨0, List.mem_range.2 hpos, rfl⟩
    obtain ⟨i, hi, hget⟩ := List.mem_iff_getElem.1 hmem
    refine ⟨Cell.num ((0 : ℕ) : ℚ), ((List.replicate n (t.cols.map (·.2))).flatten)[i]'(by omega), ?_⟩
    simp only
    rw [List.mem_iff_getElem]
    refine ⟨i, by rw [List.length_zip]; omega, ?_⟩
    rw [List.getElem_zip, hget]

/-! ### FocusStage -/

theorem assignScenario_names {n : ℕ} {outputs : List String} {v : Scen} {cols}
    (h : assignScenario n outputs v = .ok cols) : cols.map (·.1) = outputs := by
  unfold assignScenario at h
  split at h
  · simp at h
  split at h
  · simp at h
  have key : (if v.cols.map (·.1) = outputs then v.cols
      else outputs.map fun o => (o, (Dict.get? v.cols o).getD (List.replicate v.index.length none))).map (·.1)
      = outputs := by
    split
    · assumption
    · simp [Function.comp_def]
  simp only at h
  split at h
  · simp only [Except.ok.injEq] at h
    rw [← h]; exact key
  split at h
  · simp at h
  split at h
  · simp at h
  · simp only [Except.ok.injEq] at h
    rw [← h]
    simpa [Function.comp_def] using key

theorem focusLoop_cons {σ : Type} {process : Cell → Scen → PyM (Rand σ) Scen} {outputs : List String}
    {t : Timeline} {scn : Cell} {rest : List Cell} {r r' : Rand σ} {cols}
    (h : focusLoop process outputs t (scn :: rest) r = (.ok cols, r')) :
    ∃ v r1 c tail, process scn (t.sub scn) r = (.ok v, r1) ∧
      assignScenario t.index.length outputs v = .ok c ∧
      focusLoop process outputs t rest r1 = (.ok tail, r') ∧
      cols = c.map (fun x => ((scn, x.1), x.2)) ++ tail := by
  simp only [focusLoop, PyM.bind_run, PyM.lift_run] at h
  rcases hp : process scn (t.sub scn) r with ⟨e | v, r1⟩
  · rw [hp] at h; simp at h
  rw [hp] at h
  simp only at h
  rcases ha : assignScenario t.index.length outputs v with e | c
  · rw [ha] at h; simp at h
  rw [ha] at h
  simp only at h
  rcases hf : focusLoop process outputs t rest r1 with ⟨e | tail, r2⟩
  · rw [hf] at h; simp at h
  rw [hf] at h
  simp only [PyM.pure, Prod.mk.injEq, Except.ok.injEq] at h
  obtain ⟨h1, h2⟩ := h
  exact ⟨v, r1, c, tail, rfl, ha, by rw [hf, h2], h1.symm⟩

/-- what the loop gives: for each scenario a result of the function on the columns of that scenario -/
theorem focusLoop_spec {σ : Type} {process : Cell → Scen → PyM (Rand σ) Scen} {outputs : List String}
    {t : Timeline} {scns : List Cell} {r r' : Rand σ} {cols}
    (h : focusLoop process outputs t scns r = (.ok cols, r')) :
    ∃ part : List (List (String × List Val)),
      List.Forall₂ (fun scn c => ∃ r1 v r2, process scn (t.sub scn) r1 = (.ok v, r2) ∧
        assignScenario t.index.length outputs v = .ok c) scns part ∧
      cols = (List.zip scns part).flatMap fun p => p.2.map fun x => ((p.1, x.1), x.2) := by
  induction scns generalizing r cols with
  | nil =>
    simp only [focusLoop, PyM.pure, Prod.mk.injEq, Except.ok.injEq] at h
    exact ⟨[], .nil, by simp [← h.1]⟩
  | cons scn rest ih =>
    obtain ⟨v, r1, c, tail, hp, ha, hf, rfl⟩ := focusLoop_cons h
    obtain ⟨part, h1, h2⟩ := ih hf
    exact ⟨c :: part, .cons ⟨r, v, r1, hp, ha⟩ h1, by simp [h2]⟩

theorem focusProcess_ok {σ : Type} {process : Cell → Scen → PyM (Rand σ) Scen} {outputs : List String}
    {t t' : Timeline} {r r' : Rand σ} (h : focusProcess process outputs t r = (.ok t', r')) :
    t'.index = rangeIndex t.index.length ∧
      focusLoop process outputs t t.scenarios r = (.ok t'.cols, r') := by
  simp only [focusProcess, PyM.bind_run] at h
  rcases hf : focusLoop process outputs t t.scenarios r with ⟨e | cols, r2⟩
  · rw [hf] at h; simp at h
  rw [hf] at h
  simp only [PyM.pure, Prod.mk.injEq, Except.ok.injEq] at h
  obtain ⟨rfl, rfl⟩ := h
  exact ⟨rfl, rfl⟩

theorem filter_scn_eq (scn : Cell) (c : List (String × List Val)) :
    ((c.map fun x => ((scn, x.1), x.2)).filter (·.1.1 = scn)) = c.map fun x => ((scn, x.1), x.2) := by
  rw [List.filter_eq_self]
  intro x hx
  obtain ⟨y, _, rfl⟩ := List.mem_map.1 hx
  simp

theorem filter_scn_ne {s scn : Cell} (hne : s ≠ scn) (c : List (String × List Val)) :
    ((c.map fun x => ((s, x.1), x.2)).filter (·.1.1 = scn)) = [] := by
  rw [List.filter_eq_nil_iff]
  intro x hx
  obtain ⟨y, _, rfl⟩ := List.mem_map.1 hx
  simpa using hne

theorem filter_parts_not_mem {scn : Cell} {scns : List Cell} {part : List (List (String × List Val))}
    (hn : scn ∉ scns) : ((List.zip scns part).flatMap fun p => p.2.map fun x => ((p.1, x.1), x.2)).filter
      (·.1.1 = scn) = [] := by
  rw [List.filter_eq_nil_iff]
  intro x hx
  obtain ⟨p, hp, hx⟩ := List.mem_flatMap.1 hx
  obtain ⟨y, _, rfl⟩ := List.mem_map.1 hx
  have := (List.of_mem_zip hp).1
  simp only [decide_eq_true_eq]
  rintro rfl
  exact hn this

/-- the columns of one scenario in the result of the loop -/
theorem parts_sub {R : Cell → List (String × List Val) → Prop} {scns : List Cell}
    {part : List (List (String × List Val))} (h : List.Forall₂ R scns part) (hd : scns.Nodup)
    {scn : Cell} (hm : scn ∈ scns) :
    ∃ c, R scn c ∧ (((List.zip scns part).flatMap fun p => p.2.map fun x => ((p.1, x.1), x.2)).filter
      (·.1.1 = scn)).map (fun x => (x.1.2, x.2)) = c := by
  induction h with
  | nil => simp at hm
  | cons hr hrest ih =>
    rename_i s c scns part
    rw [List.nodup_cons] at hd
    simp only [List.zip_cons_cons, List.flatMap_cons, List.filter_append]
    rcases List.mem_cons.1 hm with rfl | hm
    · refine ⟨c, hr, ?_⟩
      rw [filter_scn_eq, filter_parts_not_mem hd.1]
      simp [Function.comp_def]
    · have hne : s ≠ scn := by rintro rfl; exact hd.1 hm
      rw [filter_scn_ne hne, List.nil_append]
      exact ih hd.2 hm

theorem scenarios_nodup (t : Timeline) : t.scenarios.Nodup := nodup_unique _

/-- the columns of a scenario after a stage defined scenario by scenario -/
theorem focus_sub {σ : Type} {process : Cell → Scen → PyM (Rand σ) Scen} {outputs : List String}
    {t t' : Timeline} {r r' : Rand σ} (h : focusProcess process outputs t r = (.ok t', r'))
    {scn : Cell} (hs : scn ∈ t.scenarios) :
    ∃ r1 v r2, process scn (t.sub scn) r1 = (.ok v, r2) ∧
      assignScenario t.index.length outputs v = .ok (t'.sub scn).cols := by
  obtain ⟨_, hl⟩ := focusProcess_ok h
  obtain ⟨part, h1, h2⟩ := focusLoop_spec hl
  obtain ⟨c, ⟨r1, v, r2, h3, h4⟩, h5⟩ := parts_sub h1 (scenarios_nodup t) hs
  refine ⟨r1, v, r2, h3, ?_⟩
  rw [h4]
  simp only [Timeline.sub, h2]
  rw [← h5]

/-- no scenario is added -/
theorem focus_scenarios {σ : Type} {process : Cell → Scen → PyM (Rand σ) Scen} {outputs : List String}
    {t t' : Timeline} {r r' : Rand σ} (h : focusProcess process outputs t r = (.ok t', r'))
    {scn : Cell} {n : String} {v : List Val} (hc : ((scn, n), v) ∈ t'.cols) :
    scn ∈ t.scenarios ∧ n ∈ outputs := by
  obtain ⟨_, hl⟩ := focusProcess_ok h
  obtain ⟨part, h1, h2⟩ := focusLoop_spec hl
  rw [h2] at hc
  obtain ⟨⟨s, c⟩, hp, hx⟩ := List.mem_flatMap.1 hc
  obtain ⟨y, hy, e⟩ := List.mem_map.1 hx
  simp only [Prod.mk.injEq] at e
  obtain ⟨⟨rfl, rfl⟩, rfl⟩ := e
  refine ⟨(List.of_mem_zip hp).1, ?_⟩
  obtain ⟨i, hi, hget⟩ := List.mem_iff_getElem.1 hp
  have hf := (List.forall₂_iff_get.1 h1).2 i (by rw [List.length_zip] at hi; omega)
    (by rw [List.length_zip] at hi; omega)
  obtain ⟨r1, v', r2, _, h4⟩ := hf
  rw [List.getElem_zip] at hget
  simp only [Prod.mk.injEq] at hget
  have e2 : part.get ⟨i, by rw [List.length_zip] at hi; omega⟩ = c := hget.2
  rw [e2] at h4
  rw [← assignScenario_names h4]
  exact List.mem_map.2 ⟨y, hy, rfl⟩

theorem honest_focus {σ : Type} {h : Heap} {process : Cell → Scen → PyM (Rand σ) Scen}
    {i : List String} {o : Ref} (hi : i ≠ []) :
    Honest h (⟨.restricted i o, focusProcess process⟩ : Stage σ) := by
  simp only [Honest]
  intro extra t r t' r' _ hin hp n hn
  obtain ⟨x, hx⟩ := List.exists_mem_of_ne_nil i hi
  obtain ⟨scn, v, hc⟩ := hin x hx
  obtain ⟨r1, v', r2, _, ha⟩ := focus_sub hp ((mem_scenarios t scn).2 ⟨x, v, hc⟩)
  have hm := assignScenario_names ha
  rw [← hm] at hn
  obtain ⟨⟨n', w⟩, hw, rfl⟩ := List.mem_map.1 hn
  simp only [Timeline.sub, List.mem_map, List.mem_filter] at hw
  obtain ⟨⟨⟨s, n''⟩, w'⟩, ⟨hc', _⟩, e⟩ := hw
  simp only [Prod.mk.injEq] at e
  obtain ⟨rfl, rfl⟩ := e
  exact ⟨s, w', hc'⟩

/-! ### Frames scenario by scenario -/

theorem sub_of_blocks {ι : Type} {L : List ι} {lab : ι → Cell} {names : List String}
    {val : ι → String → List Val} {t : Timeline}
    (ht : t.cols = L.flatMap fun p => names.map fun n => ((lab p, n), val p n))
    (hd : (L.map lab).Nodup) {p : ι} (hp : p ∈ L) :
    (t.sub (lab p)).cols = names.map fun n => (n, val p n) := by
  simp only [Timeline.sub, ht]
  clear ht
  induction L with
  | nil => simp at hp
  | cons q L ih =>
    simp only [List.map_cons, List.nodup_cons] at hd
    simp only [List.flatMap_cons, List.filter_append, List.map_append]
    rcases List.mem_cons.1 hp with rfl | hp
    · have h1 : (names.map fun n => ((lab p, n), val p n)).filter (·.1.1 = lab p)
          = names.map fun n => ((lab p, n), val p n) := by
        rw [List.filter_eq_self]
        intro x hx
        obtain ⟨y, _, rfl⟩ := List.mem_map.1 hx
        simp
      have h2 : (L.flatMap fun q => names.map fun n => ((lab q, n), val q n)).filter (·.1.1 = lab p)
          = [] := by
        rw [List.filter_eq_nil_iff]
        intro x hx
        obtain ⟨q, hq, hx⟩ := List.mem_flatMap.1 hx
        obtain ⟨y, _, rfl⟩ := List.mem_map.1 hx
        simp only [decide_eq_true_eq]
        intro e
        exact hd.1 (List.mem_map.2 ⟨q, hq, e⟩)
      rw [h1, h2]
      simp [Function.comp_def]
    · have h1 : (names.map fun n => ((lab q, n), val q n)).filter (·.1.1 = lab p) = [] := by
        rw [List.filter_eq_nil_iff]
        intro x hx
        obtain ⟨y, _, rfl⟩ := List.mem_map.1 hx
        simp only [decide_eq_true_eq]
        intro e
        exact hd.1 (List.mem_map.2 ⟨p, hp, e.symm⟩)
      rw [h1, ih hd.2 hp]
      simp

theorem unique_blocks {α β : Type} [DecidableEq α] (L : List α) (names : List β) (hn : names ≠ [])
    (hd : L.Nodup) : unique (L.flatMap fun s => names.map fun _ => s) = L := by
  induction L with
  | nil => simp [unique]
  | cons a L ih =>
    rw [List.nodup_cons] at hd
    rw [List.flatMap_cons, unique_append, ih hd.2]
    have hr : (names.map fun _ => a) = List.replicate names.length a := by
      simp [List.map_const']
    rw [hr, unique_replicate (by simpa using hn)]
    simp only [List.cons_append, List.nil_append, List.cons.injEq, true_and]
    rw [List.filter_eq_self]
    intro x hx
    simp only [decide_eq_true_eq, List.mem_replicate, not_and]
    rintro - rfl
    exact hd.1 hx

theorem unique_same {α β : Type} [DecidableEq α] (L : List β) (names : List α) (hL : L ≠ [])
    (hd : names.Nodup) : unique (L.flatMap fun _ => names) = names := by
  cases L with
  | nil => exact absurd rfl hL
  | cons a L =>
    rw [List.flatMap_cons, unique_append, unique_of_nodup hd]
    have : (unique (L.flatMap fun _ => names)).filter (fun x => decide (x ∉ names)) = [] := by
      rw [List.filter_eq_nil_iff]
      intro x hx
      rw [mem_unique, List.mem_flatMap] at hx
      obtain ⟨_, _, hx⟩ := hx
      simpa using hx
    rw [this, List.append_nil]

theorem Spec.Regular.scenarios {scns : List Cell} {names : List String} {v} {t : Timeline}
    (h : Regular scns names v t) : t.scenarios = scns := by
  obtain ⟨h1, h2, h3, h4⟩ := h
  rw [Timeline.scenarios, h4, List.map_flatMap]
  simp only [List.map_map, Function.comp_def]
  exact unique_blocks scns names h3 h1

theorem Spec.Regular.names {scns : List Cell} {names : List String} {v} {t : Timeline}
    (h : Regular scns names v t) (hs : scns ≠ []) : t.names = names := by
  obtain ⟨h1, h2, h3, h4⟩ := h
  rw [Timeline.names, h4, List.map_flatMap]
  simp only [List.map_map, Function.comp_def, List.map_id']
  exact unique_same scns names hs h2

theorem zip_flatMap {ι α β : Type} (L : List ι) (f : ι → List α) (g : ι → List β)
    (h : ∀ i ∈ L, (f i).length = (g i).length) :
    List.zip (L.flatMap f) (L.flatMap g) = L.flatMap fun i => List.zip (f i) (g i) := by
  induction L with
  | nil => rfl
  | cons i L ih =>
    simp only [List.flatMap_cons]
    rw [List.zip_append (h i List.mem_cons_self), ih fun j m => h j (List.mem_cons_of_mem _ m)]

theorem flatMap_eq_range {α β : Type} [Inhabited α] (l : List α) (f : α → List β) :
    l.flatMap f = (List.range l.length).flatMap fun i => f (l.getD i default) := by
  have : l = (List.range l.length).map fun i => l.getD i default := by
    apply List.ext_getElem
    · simp
    · intro i h1 h2
      simp [List.getD_eq_getElem?_getD, h1]
  conv_lhs => rw [this]
  rw [List.flatMap_map]

instance : Inhabited Cell := ⟨.nan⟩

theorem flatten_replicate {β : Type} (l : List Cell) (f : Cell → List β) (n : ℕ) :
    (List.replicate n (l.flatMap f)).flatten =
      (List.range (l.length * n)).flatMap fun j => f (l.getD (j % l.length) default) := by
  induction n with
  | zero => simp
  | succ n ih =>
    rw [List.replicate_succ', List.flatten_append, ih, Nat.mul_succ, List.range_add,
      List.flatMap_append]
    congr 1
    simp only [List.flatten_cons, List.flatten_nil, List.append_nil, List.flatMap_map]
    rw [flatMap_eq_range l f]
    rw [List.flatMap_def, List.flatMap_def]
    congr 1
    apply List.map_congr_left
    intro i hi
    rw [List.mem_range] at hi
    rw [Nat.mul_add_mod, Nat.mod_eq_of_lt hi]

theorem zip_map_map {ι α β : Type} (l : List ι) (f : ι → α) (g : ι → β) :
    List.zip (l.map f) (l.map g) = l.map fun i => (f i, g i) := by
  induction l with
  | nil => rfl
  | cons a l ih => simp [ih]

/-- `RepeatScenario` on a frame given scenario by scenario -/
theorem repeatProcess_regular {σ : Type} {scns : List Cell} {names : List String} {v} {t : Timeline}
    (h : Regular scns names v t) (n : ℕ) (o : List String) (r : Rand σ) :
    ∃ t', repeatProcess n o t r = (.ok t', r) ∧ t'.index = rangeIndex t.index.length ∧
      Regular (rangeIndex (scns.length * n)) names
        (fun s m => match s with
          | .num q => v (scns.getD (q.num.toNat % scns.length) default) m
          | _ => []) t' := by
  by_cases hs : scns = []
  · subst hs
    obtain ⟨h1, h2, h3, h4⟩ := h
    have hc : t.cols = [] := by simpa using h4
    refine ⟨⟨rangeIndex t.index.length, []⟩, ?_, rfl, by simp [rangeIndex], h2, h3, by simp [rangeIndex]⟩
    have hsc : t.scenarios = [] := by simp [Timeline.scenarios, hc, unique]
    simp [repeatProcess, hc, hsc, buildMultiIndex, rangeIndex, PyM.pure]
  · have hsc := h.scenarios
    have hna := h.names hs
    obtain ⟨h1, h2, h3, h4⟩ := h
    have hdata : (List.replicate n (t.cols.map (·.2))).flatten =
        (List.range (scns.length * n)).flatMap fun j =>
          names.map fun m => v (scns.getD (j % scns.length) default) m := by
      rw [h4, List.map_flatMap]
      simp only [List.map_map, Function.comp_def]
      rw [flatten_replicate]
    have hidx : buildMultiIndex (rangeIndex (t.scenarios.length * n)) t.names =
        (List.range (scns.length * n)).flatMap fun j : ℕ =>
          names.map fun m => (Cell.num (j : ℚ), m) := by
      rw [buildMultiIndex_eq, hsc, hna, rangeIndex, List.flatMap_map]
    have hlen : ((List.range (scns.length * n)).flatMap fun j =>
          names.map fun m => v (scns.getD (j % scns.length) default) m).length =
        ((List.range (scns.length * n)).flatMap fun j : ℕ =>
          names.map fun m => (Cell.num (j : ℚ), m)).length := by
      simp [List.length_flatMap]
    refine ⟨⟨rangeIndex t.index.length, List.zip ((List.range (scns.length * n)).flatMap fun j : ℕ =>
          names.map fun m => (Cell.num (j : ℚ), m)) ((List.range (scns.length * n)).flatMap fun j =>
          names.map fun m => v (scns.getD (j % scns.length) default) m)⟩,
      ?_, rfl, rangeIndex_nodup _, h2, h3, ?_⟩
    · simp only [repeatProcess, hdata, hidx]
      rw [if_pos hlen]
      rfl
    · simp only
      rw [zip_flatMap _ _ _ (by simp), rangeIndex, List.flatMap_map]
      congr 1
      funext j
      rw [zip_map_map]
      apply List.map_congr_left
      intro m _
      simp

/-! ### Fault -/

theorem addSlice_length (v : List ℚ) (b e : ℤ) (x : ℚ) : (addSlice v b e x).length = v.length := by
  simp [addSlice]

theorem addSlice_get {v : List ℚ} {b e : ℤ} {x : ℚ} (hb : 0 ≤ b) {i : ℕ} (hi : i < v.length) :
    (addSlice v b e x)[i]? = some (v[i] + if b ≤ (i : ℤ) ∧ (i : ℤ) < (if e < 0 then e + v.length else e) then x else 0) := by
  have hb' : sliceBound v.length b ≤ i ↔ b ≤ (i : ℤ) := by
    simp only [sliceBound, if_neg (not_lt.2 hb)]
    omega
  have he' : i < sliceBound v.length e ↔ (i : ℤ) < if e < 0 then e + v.length else e := by
    unfold sliceBound
    split <;> omega
  simp only [addSlice, List.getElem?_mapIdx, List.getElem?_eq_getElem hi, Option.map_some, hb', he']
  generalize (if e < 0 then e + (v.length : ℤ) else e) = z
  split <;> simp

theorem goingAny_cons (n : ℕ) (f : ℤ × ℤ) (l : List (ℤ × ℤ)) (t : ℕ) :
    goingAny n (f :: l) t = goingAny n l t +
      if f.1 ≤ (t : ℤ) ∧ (t : ℤ) < (if f.1 + f.2 < 0 then f.1 + f.2 + n else f.1 + f.2) then 1 else 0 := by
  simp only [goingAny, List.filter_cons]
  by_cases hP : f.1 ≤ (t : ℤ) ∧ (t : ℤ) < (if f.1 + f.2 < 0 then f.1 + f.2 + n else f.1 + f.2 : ℤ)
  · rw [if_pos (by simpa using hP), if_pos hP, List.length_cons]
  · rw [if_neg (by simpa using hP), if_neg hP, Nat.add_zero]

theorem goingAny_eq {n : ℕ} {faults : List (ℤ × ℤ)} (hf : ∀ f ∈ faults, 0 ≤ f.1 ∧ 0 ≤ f.2) (t : ℕ) :
    goingAny n faults t = going faults t := by
  unfold goingAny going
  congr 1
  apply List.filter_congr
  intro f hm
  have := hf f hm
  rw [if_neg (by omega)]

theorem foldl_addSlice_length {loss : ℚ} (faults : List (ℤ × ℤ)) (v : List ℚ) :
    (faults.foldl (fun v f => addSlice v f.1 (f.1 + f.2) loss) v).length = v.length := by
  induction faults generalizing v with
  | nil => rfl
  | cons f faults ih => rw [List.foldl_cons, ih, addSlice_length]

theorem foldl_addSlice {loss : ℚ} (faults : List (ℤ × ℤ)) (hf : ∀ f ∈ faults, 0 ≤ f.1)
    (v : List ℚ) {i : ℕ} (hi : i < v.length) :
    (faults.foldl (fun v f => addSlice v f.1 (f.1 + f.2) loss) v)[i]? =
      some (v[i] + loss * (goingAny v.length faults i : ℚ)) := by
  induction faults generalizing v with
  | nil => simp [goingAny, List.getElem?_eq_getElem hi]
  | cons f faults ih =>
    have h1 := hf f List.mem_cons_self
    rw [List.foldl_cons, ih (fun f m => hf f (List.mem_cons_of_mem _ m)) _
      (by rw [addSlice_length]; exact hi)]
    have := addSlice_get (x := loss) (e := f.1 + f.2) h1 hi
    rw [List.getElem?_eq_getElem (by rw [addSlice_length]; exact hi)] at this
    simp only [Option.some.injEq] at this ⊢
    rw [this, goingAny_cons, addSlice_length]
    generalize (if f.1 + f.2 < 0 then f.1 + f.2 + (v.length : ℤ) else f.1 + f.2) = z
    split <;> push_cast <;> ring

theorem lossOf_any {loss : ℚ} {n : ℕ} {faults : List (ℤ × ℤ)} (hf : ∀ f ∈ faults, 0 ≤ f.1) :
    lossOf loss n faults = (List.range n).map fun i => loss * (goingAny n faults i : ℚ) := by
  apply List.ext_getElem?
  intro i
  by_cases hi : i < n
  · rw [lossOf, foldl_addSlice faults hf _ (by simpa using hi)]
    simp [hi]
  · rw [List.getElem?_eq_none (by rw [lossOf, foldl_addSlice_length]; simpa using hi),
      List.getElem?_eq_none (by simpa using hi)]

theorem npRandint_mem {σ : Type} {g : Rng σ} (hg : Lawful g) {low high : ℤ} {size : ℕ} {r r' : Rand σ}
    {l : List ℤ} (h : npRandint g low high size r = (.ok l, r')) :
    l.length = size ∧ ∀ z ∈ l, low ≤ z ∧ z < high := by
  unfold npRandint at h
  split at h
  · rename_i h0
    simp only [Prod.mk.injEq, Except.ok.injEq] at h
    rw [← h.1, h0]
    simp
  split at h
  · simp at h
  · rename_i hlt
    simp only [Prod.mk.injEq, Except.ok.injEq] at h
    rw [← h.1]
    exact ⟨hg.randint_length _ _ _ _ (not_le.1 hlt), hg.randint_mem _ _ _ _ (not_le.1 hlt)⟩

theorem faultScenario_ok {σ : Type} {g : Rng σ} (hg : Lawful g) {p : FaultParams} {scn : Cell} {s v : Scen}
    {r r' : Rand σ} (h : faultScenario g p scn s r = (.ok v, r')) :
    ∃ faults : List (ℤ × ℤ), faults.length ≤ s.index.length ∧
      (∀ f ∈ faults, 0 ≤ f.1 ∧ f.1 < s.index.length ∧ p.downtimeMin ≤ f.2 ∧ f.2 < p.downtimeMax) ∧
      subtractQuantity (lossOf p.loss s.index.length faults) s = .ok v := by
  simp only [faultScenario, PyM.bind_run, PyM.lift_run] at h
  rcases h1 : faultSeed g p.seed r with ⟨e | u, r1⟩
  · rw [h1] at h; simp at h
  rw [h1] at h
  simp only at h
  rcases h2 : npCount g p.occurFreq s.index.length r1 with ⟨e | nb, r2⟩
  · rw [h2] at h; simp at h
  rw [h2] at h
  simp only at h
  rcases h3 : npRandint g 0 s.index.length nb r2 with ⟨e | begins, r3⟩
  · rw [h3] at h; simp at h
  rw [h3] at h
  simp only at h
  rcases h4 : npRandint g p.downtimeMin p.downtimeMax nb r3 with ⟨e | durations, r4⟩
  · rw [h4] at h; simp at h
  rw [h4] at h
  simp only [Prod.mk.injEq] at h
  obtain ⟨hb1, hb2⟩ := npRandint_mem hg h3
  obtain ⟨hd1, hd2⟩ := npRandint_mem hg h4
  refine ⟨List.zip begins durations, ?_, ?_, h.1⟩
  · have hc : nb ≤ s.index.length := by
      unfold npCount at h2
      split at h2
      · simp only [Prod.mk.injEq, Except.ok.injEq] at h2
        rw [← h2.1]
        exact hg.count_le _ _ _
      · simp at h2
    rw [List.length_zip]
    omega
  · rintro ⟨b, d⟩ hm
    obtain ⟨m1, m2⟩ := List.of_mem_zip hm
    obtain ⟨a1, a2⟩ := hb2 b m1
    obtain ⟨a3, a4⟩ := hd2 d m2
    exact ⟨a1, a2, a3, a4⟩

theorem subtractQuantity_ok {loss : List ℚ} {s v : Scen} (h : subtractQuantity loss s = .ok v) :
    v.index = s.index ∧ (s.cols.filter fun c => c.1 = "quantity").length = 1 ∧
    v.cols = s.cols.map fun c => if c.1 = "quantity" then (c.1, List.zipWith subVal c.2 loss) else c := by
  unfold subtractQuantity at h
  split at h
  · simp at h
  · rename_i c hc
    simp only [Except.ok.injEq] at h
    rw [← h, hc]
    simp
  · simp at h

theorem get?_map_quantity (l : List (String × List Val)) (f : List Val → List Val) (o : String) :
    Dict.get? (l.map fun c => if c.1 = "quantity" then (c.1, f c.2) else c) o =
      (Dict.get? l o).map fun v => if o = "quantity" then f v else v := by
  induction l with
  | nil => rfl
  | cons c l ih =>
    obtain ⟨n, v⟩ := c
    simp only [List.map_cons]
    by_cases hq : n = "quantity"
    · subst hq
      simp only [if_true, Dict.get?]
      by_cases ho : "quantity" = o
      · subst ho; simp
      · simp only [if_neg ho]
        exact ih
    · simp only [if_neg hq, Dict.get?]
      by_cases ho : n = o
      · subst ho; simp [hq]
      · simp only [if_neg ho]
        exact ih

end Hadar
