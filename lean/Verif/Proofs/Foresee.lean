import Verif.Spec.Foresee
import Verif.Proofs.Stages
import Verif.Proofs.Refusals

/-! # What can be told of a run of stages: lemmas on frames -/

namespace Hadar

open Spec

variable {σ : Type}

theorem Spec.Drawn.names {o : Outline} {t : Timeline} (h : Drawn o t) : t.names = o.names := by
  obtain ⟨-, hn, parts, hp, -, hk, hc⟩ := h
  rw [Timeline.names, hc, List.map_flatMap]
  have : (parts.flatMap fun p => (p.2.map fun c => ((p.1, c.1), c.2)).map fun x => x.1.2) = parts.flatMap fun _ => o.names := by
    rw [List.flatMap_def, List.flatMap_def]
    congr 1
    refine List.map_congr_left fun p m => ?_
    rw [List.map_map, ← hk p m]
    rfl
  rw [this]
  exact unique_same parts o.names hp hn

/-- the columns are known by scenario and name -/
theorem Spec.Drawn.regular {o : Outline} {t : Timeline} (h : Drawn o t) (h0 : o.names ≠ []) : ∃ scns v, scns ≠ [] ∧ Regular scns o.names v t := by
  obtain ⟨-, hn, parts, hp, hd, hk, hc⟩ := h
  refine ⟨parts.map Prod.fst, fun s n => (((Dict.get? parts s).getD []).lookup n).getD [], by simpa using hp, hd, hn, h0, ?_⟩
  rw [hc, List.flatMap_map, List.flatMap_def, List.flatMap_def]
  congr 1
  refine List.map_congr_left fun p m => ?_
  have hg : Dict.get? parts p.1 = some p.2 := Dict.get?_of_mem hd m
  beta_reduce
  rw [hg, ← hk p m, List.map_map]
  refine List.map_congr_left fun c mc => ?_
  have hl : ∀ (l : List (String × List Val)), (l.map Prod.fst).Nodup → c ∈ l → l.lookup c.1 = some c.2 := by
    intro l
    induction l with
    | nil => intro _ h; cases h
    | cons a l ih =>
      intro hnd hm
      rw [List.map_cons, List.nodup_cons] at hnd
      rcases List.mem_cons.1 hm with rfl | hm
      · simp [List.lookup]
      · have : c.1 ≠ a.1 := fun e => hnd.1 (e ▸ List.mem_map.2 ⟨c, hm, rfl⟩)
        simp only [List.lookup, beq_eq_false_iff_ne.2 this]
        exact ih hnd.2 hm
  simp only [Function.comp_apply, Option.getD_some]
  rw [hl p.2 (by rw [hk p m]; exact hn) mc]
  rfl

theorem Spec.Drawn.of_regular {scns : List Cell} {names : List String} {v} {t : Timeline} (h : Regular scns names v t) (h0 : scns ≠ []) :
    Drawn ⟨names, t.index⟩ t := by
  obtain ⟨h1, h2, h3, h4⟩ := h
  refine ⟨rfl, h2, scns.map fun s => (s, names.map fun n => (n, v s n)), by simpa using h0, by simpa [Function.comp_def] using h1, ?_, ?_⟩
  · intro p m
    obtain ⟨s, _, rfl⟩ := List.mem_map.1 m
    simp [Function.comp_def]
  · rw [h4, List.flatMap_map]
    simp [Function.comp_def]

theorem Spec.Drawn.blank {rows : List Cell} {t : Timeline} (hi : t.index = rows) (hc : t.cols = []) : Drawn ⟨[], rows⟩ t :=
  ⟨hi, List.nodup_nil, [(.num 0, [])], by simp, by simp, by simp, by simpa using hc⟩

theorem Spec.Drawn.of_blank {o : Outline} {t : Timeline} (h : Drawn o t) (h0 : o.names = []) : t.cols = [] := by
  obtain ⟨-, hn, parts, hp, hd, hk, hc⟩ := h
  rw [hc, List.flatMap_eq_nil_iff]
  intro p m
  have := hk p m
  rw [h0, List.map_eq_nil_iff] at this
  simp [this]

/-- columns are changed one by one -/
theorem Spec.Drawn.map {o : Outline} {t t' : Timeline} (h : Drawn o t) (f : String → String) (v : List Val → List Val)
    (hn : (o.names.map f).Nodup) (hi : t'.index = t.index) (hc : t'.cols = t.cols.map fun c => ((c.1.1, f c.1.2), v c.2)) :
    Drawn { o with names := o.names.map f } t' := by
  obtain ⟨h1, -, parts, hp, hd, hk, hcols⟩ := h
  refine ⟨hi.trans h1, hn, parts.map fun p => (p.1, p.2.map fun c => (f c.1, v c.2)), by simpa using hp, by simpa [Function.comp_def] using hd, ?_, ?_⟩
  · intro p m
    obtain ⟨q, hq, rfl⟩ := List.mem_map.1 m
    simp only [List.map_map, ← hk q hq, Function.comp_def]
  · rw [hc, hcols, List.map_flatMap, List.flatMap_map]
    simp [Function.comp_def, List.map_map]

/-- columns are left out -/
theorem Spec.Drawn.filter {o : Outline} {t t' : Timeline} (h : Drawn o t) (f : String → Bool)
    (hi : t'.index = t.index) (hc : t'.cols = t.cols.filter fun c => f c.1.2) :
    Drawn { o with names := o.names.filter f } t' := by
  obtain ⟨h1, hn, parts, hp, hd, hk, hcols⟩ := h
  refine ⟨hi.trans h1, hn.filter _, parts.map fun p => (p.1, p.2.filter fun c => f c.1), by simpa using hp,
    by simpa [Function.comp_def] using hd, ?_, ?_⟩
  · intro p m
    obtain ⟨q, hq, rfl⟩ := List.mem_map.1 m
    simp only [← hk q hq, List.filter_map, Function.comp_def]
  · rw [hc, hcols, List.filter_flatMap, List.flatMap_map]
    simp [Function.comp_def, List.filter_map]

theorem newName_eq (d : Dict String String) (n : String) : newName d n = renameName d n := by
  unfold newName renameName
  induction d with
  | nil => rfl
  | cons a d ih =>
    obtain ⟨k, x⟩ := a
    simp only [List.find?_cons, Dict.get?]
    by_cases h : k = n
    · simp [h]
    · simp only [h, decide_false, if_neg h]; exact ih

theorem counted_eq (n : ℕ) : counted n = rangeIndex n := rfl

theorem Spec.Drawn.sub {o : Outline} {t : Timeline} (h : Drawn o t) {scn : Cell} (hs : scn ∈ t.scenarios) :
    (t.sub scn).cols.map Prod.fst = o.names := by
  by_cases h0 : o.names = []
  · rw [mem_scenarios, h.of_blank h0] at hs
    obtain ⟨_, _, hs⟩ := hs
    cases hs
  · obtain ⟨scns, v, h1, hr⟩ := h.regular h0
    rw [hr.scenarios] at hs
    obtain ⟨a, b, c, d⟩ := hr
    have := sub_of_blocks (L := scns) (lab := id) (val := v) d (by simpa using a) hs
    simp only [id] at this
    rw [this]
    simp [Function.comp_def]

/-- one scenario of faults -/
theorem faultScenario_runs {g : Rng σ} (hg : Lawful g) {p : FaultParams} {scn : Cell} {s : Scen} (hs : SeedOk p.seed) (h1 : 0 ≤ p.occurFreq)
    (h2 : p.occurFreq ≤ 1) (hd : p.downtimeMin < p.downtimeMax ∨ s.index = []) (hq : "quantity" ∈ s.cols.map Prod.fst)
    (hn : (s.cols.map Prod.fst).Nodup) (r : Rand σ) :
    ∃ v r', faultScenario g p scn s r = (.ok v, r') ∧ v.index = s.index ∧ v.cols.map Prod.fst = s.cols.map Prod.fst := by
  have hseed : ∃ r1, faultSeed g p.seed r = (.ok (), r1) := by
    unfold faultSeed
    revert hs
    cases p.seed with
    | none => exact fun _ => ⟨_, rfl⟩
    | some z =>
      intro hs
      simp only
      split
      · exact ⟨_, rfl⟩
      · next hz =>
        have hz' := hs.resolve_left hz
        exact ⟨_, by unfold npSeed; rw [if_pos hz']⟩
  obtain ⟨r1, e1⟩ := hseed
  obtain ⟨r2, e2⟩ : ∃ r2, npCount g p.occurFreq s.index.length r1 = (.ok (g.count p.occurFreq s.index.length r1.np).1, r2) :=
    ⟨_, if_pos ⟨h1, h2⟩⟩
  have hle := hg.count_le p.occurFreq s.index.length r1.np
  have hrand : ∀ low high r0, low < high ∨ s.index = [] →
      ∃ l r', npRandint g low high (g.count p.occurFreq s.index.length r1.np).1 r0 = (.ok l, r') := by
    intro low high r0 hlt
    unfold npRandint
    split
    · exact ⟨_, _, rfl⟩
    · next h0 =>
      have : low < high := hlt.resolve_right fun e => h0 (by rw [e] at hle ⊢; simpa using hle)
      rw [if_neg (not_le.2 this)]
      exact ⟨_, _, rfl⟩
  obtain ⟨b, r3, e3⟩ := hrand 0 s.index.length r2 (by
    rcases Nat.eq_zero_or_pos s.index.length with h | h
    · exact .inr (List.length_eq_zero_iff.1 h)
    · exact .inl (by exact_mod_cast h))
  obtain ⟨du, r4, e4⟩ := hrand p.downtimeMin p.downtimeMax r3 hd
  have hsub : ∀ loss, ∃ v, subtractQuantity loss s = .ok v := by
    intro loss
    obtain ⟨⟨k, c⟩, hc, e⟩ := List.mem_map.1 hq
    simp only at e
    subst e
    have hf : (s.cols.filter fun c => c.1 = "quantity") = [("quantity", c)] := by
      revert hn hc
      induction s.cols with
      | nil => intro _ h; cases h
      | cons a l ih =>
        intro hn hc
        rw [List.map_cons, List.nodup_cons] at hn
        rcases List.mem_cons.1 hc with rfl | hc
        · rw [List.filter_cons_of_pos (by simp), List.filter_eq_nil_iff.2]
          intro x hx
          simp only [decide_eq_true_eq]
          exact fun e => hn.1 (e ▸ List.mem_map.2 ⟨x, hx, rfl⟩)
        · rw [List.filter_cons_of_neg]
          · exact ih hn.2 hc
          · simp only [decide_eq_true_eq]
            exact fun e => hn.1 (e ▸ List.mem_map.2 ⟨_, hc, rfl⟩)
    unfold subtractQuantity
    rw [hf]
    exact ⟨_, rfl⟩
  obtain ⟨v, e5⟩ := hsub (lossOf p.loss s.index.length (List.zip b du))
  obtain ⟨a1, -, a3⟩ := subtractQuantity_ok e5
  refine ⟨v, r4, ?_, a1, ?_⟩
  · simp only [faultScenario, PyM.bind_run, e1, e2, e3, e4, PyM.lift_run, e5]
  · rw [a3, List.map_map]
    refine List.map_congr_left fun c _ => ?_
    simp only [Function.comp_apply]
    split <;> rfl

/-- putting it in the result -/
theorem assignScenario_runs {n : ℕ} {out : List String} {v : Scen} (ho : out ≠ []) (hn : (v.cols.map Prod.fst).Nodup) (hl : v.index.length = n)
    (hi : v.index.Nodup) : ∃ c, assignScenario n out v = .ok c := by
  unfold assignScenario
  rw [if_neg ho, if_neg fun h => h.2 hn]
  simp only
  split
  · exact ⟨_, rfl⟩
  · next hne =>
    have h0 : ¬ n = 0 := by
      rintro rfl
      exact hne (by rw [List.length_eq_zero_iff.1 hl]; rfl)
    rw [if_neg h0]
    exact ⟨_, rfl⟩

theorem assignScenario_refuses {n : ℕ} {out : List String} {v : Scen} (hi : out = [] ∨ ¬ v.index.Nodup) :
    assignScenario n out v = .error .valueError := by
  unfold assignScenario
  split
  · rfl
  next ho =>
  have hi := hi.resolve_left ho
  split
  · rfl
  simp only
  rw [if_neg fun h => hi (by rw [h]; exact rangeIndex_nodup n)]
  split <;> rfl

/-- a loop where everything goes well -/
theorem focusLoop_runs {process : Cell → Scen → PyM (Rand σ) Scen} {out : List String} {t : Timeline} (scns : List Cell)
    (h : ∀ scn ∈ scns, ∀ r, ∃ v r' c, process scn (t.sub scn) r = (.ok v, r') ∧ assignScenario t.index.length out v = .ok c) (r : Rand σ) :
    ∃ cols r', focusLoop process out t scns r = (.ok cols, r') := by
  induction scns generalizing r with
  | nil => exact ⟨_, _, rfl⟩
  | cons scn rest ih =>
    obtain ⟨v, r1, c, e1, e2⟩ := h scn List.mem_cons_self r
    obtain ⟨cols, r2, e3⟩ := ih (fun s m => h s (List.mem_cons_of_mem _ m)) r1
    refine ⟨c.map (fun x => ((scn, x.1), x.2)) ++ cols, r2, ?_⟩
    simp only [focusLoop, PyM.bind_run, PyM.lift_run, e1, e2, e3, PyM.pure]

/-- a frame of blocks -/
theorem Spec.Drawn.of_focus {process : Cell → Scen → PyM (Rand σ) Scen} {out : List String} {t t' : Timeline} {r r' : Rand σ}
    (hn : out.Nodup) (hs : t.scenarios ≠ []) (h : focusProcess process out t r = (.ok t', r')) :
    Drawn ⟨out, counted t.index.length⟩ t' := by
  obtain ⟨h1, hl⟩ := focusProcess_ok h
  obtain ⟨part, h2, h3⟩ := focusLoop_spec hl
  have hlen := h2.length_eq
  refine ⟨h1, hn, List.zip t.scenarios part, ?_, ?_, ?_, h3⟩
  · cases hsc : t.scenarios with
    | nil => exact absurd hsc hs
    | cons a l =>
      rw [hsc] at hlen
      cases part with
      | nil => cases hlen
      | cons b m => simp
  · rw [List.map_fst_zip hlen.le]
    exact scenarios_nodup t
  · rintro ⟨s, c⟩ hm
    obtain ⟨i, hi, e⟩ := List.getElem_of_mem hm
    rw [List.getElem_zip] at e
    cases e
    obtain ⟨_, v, _, _, ha⟩ := (List.forall₂_iff_get.1 h2).2 i (by rw [List.length_zip] at hi; omega) (by rw [List.length_zip] at hi; omega)
    exact assignScenario_names ha

/-! ### What is raised -/

/-- what a scenario of faults raises -/
theorem faultScenario_raises (g : Rng σ) (p : FaultParams) (scn : Cell) (s : Scen) (r : Rand σ) :
    (faultScenario g p scn s).Raises (fun e => e = .valueError ∨ (e = .keyError ∧ "quantity" ∉ s.cols.map Prod.fst)) r := by
  have hrand : ∀ low high n r', (npRandint g low high n).Raises
      (fun e => e = .valueError ∨ (e = .keyError ∧ "quantity" ∉ s.cols.map Prod.fst)) r' := by
    intro low high n r' e he
    unfold npRandint at he
    split at he
    · cases he
    · split at he
      · cases he; exact .inl rfl
      · cases he
  refine .bind ?_ fun _ _ _ => .bind ?_ fun _ _ _ => .bind (hrand _ _ _ _) fun _ _ _ => .bind (hrand _ _ _ _) fun _ _ _ => .lift ?_ _
  · intro e he
    revert he
    unfold faultSeed
    cases p.seed with
    | none => intro he; cases he
    | some z =>
      intro he
      simp only at he
      split at he
      · cases he
      · unfold npSeed at he
        split at he
        · cases he
        · cases he; exact .inl rfl
  · intro e he
    unfold npCount at he
    split at he
    · cases he
    · cases he; exact .inl rfl
  · intro e he
    unfold subtractQuantity at he
    split at he
    · next hf =>
      cases he
      refine .inr ⟨rfl, fun hm => ?_⟩
      obtain ⟨c, hc, e⟩ := List.mem_map.1 hm
      exact (List.filter_eq_nil_iff.1 hf c hc) (by simpa using e)
    · cases he
    · cases he; exact .inl rfl

/-- what the loop raises -/
theorem focusLoop_raises {P : PyErr → Prop} {process : Cell → Scen → PyM (Rand σ) Scen} {out : List String} {t : Timeline} (scns : List Cell)
    (hv : P .valueError) (h : ∀ scn ∈ scns, ∀ r, (process scn (t.sub scn)).Raises P r) (r : Rand σ) : (focusLoop process out t scns).Raises P r := by
  induction scns generalizing r with
  | nil => exact .pure _ _
  | cons scn rest ih =>
    refine .bind (h scn List.mem_cons_self r) fun v r1 _ => .bind (.lift ?_ _) fun _ r2 _ => .bind (ih (fun s m => h s (List.mem_cons_of_mem _ m)) r2) fun _ _ _ => .pure _ _
    intro e he
    unfold assignScenario at he
    split at he
    · cases he; exact hv
    split at he
    · cases he; exact hv
    simp only at he
    split at he
    · cases he
    split at he
    · cases he; exact hv
    split at he
    · cases he; exact hv
    · cases he

theorem faultScenario_valid {g : Rng σ} {p : FaultParams} {scn : Cell} {s v : Scen} {r r' : Rand σ}
    (h : faultScenario g p scn s r = (.ok v, r')) : SeedOk p.seed ∧ 0 ≤ p.occurFreq ∧ p.occurFreq ≤ 1 := by
  simp only [faultScenario, PyM.bind_run, PyM.lift_run] at h
  rcases h1 : faultSeed g p.seed r with ⟨e | u, r1⟩
  · rw [h1] at h; simp at h
  rw [h1] at h
  simp only at h
  rcases h2 : npCount g p.occurFreq s.index.length r1 with ⟨e | nb, r2⟩
  · rw [h2] at h; simp at h
  refine ⟨?_, ?_⟩
  · revert h1
    unfold faultSeed
    cases p.seed with
    | none => exact fun _ => trivial
    | some z =>
      simp only
      split
      · exact fun _ => .inl ‹_›
      · unfold npSeed
        split
        · exact fun _ => .inr ‹_›
        · intro h; cases h
  · unfold npCount at h2
    split at h2
    · assumption
    · cases h2

end Hadar
