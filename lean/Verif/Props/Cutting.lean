import Verif.Proofs.Cutting
import Verif.Props.Query

/-!
# C139: questions on parts and on the whole
-/

namespace Hadar.Props

open Hadar Spec

variable {junk : Junk} {s : Study} {r : Result} {a : Analyzer} {g g' g'' : IndexArg} {calls calls' calls'' : List (IndexKind × IndexArg)}
  {kind : IndexKind} {pt pt' pt'' : Pivot} {cols : List String}

open Classical in
/-- what the table of a complete question shows -/
theorem shows_ask (hb : Built s) (hm : Mirrors s r) (ha : Analyzer.init junk s r = .ok a) (hr : Reliable s kind)
    (hc : (calls.map Prod.fst).Perm [.node, .time, .scn, kind]) (h : a.ask g calls = .ok (.table (some pt))) (hbd : BoundsGiven calls)
    (hcols : ∀ c ∈ cols, InTable ((.network, g) :: calls) pt c) :
    (shows pt cols).Perm (((tableRows s r kind).filter fun row => decide (Matches s ((.network, g) :: calls) row)).map
      fun row => cols.map (Row.at row)) := by
  have hk : ∀ c ∈ calls, c.1.isElement = true → c.1 = kind := by
    intro c hm he
    have := hc.mem_iff.mp (List.mem_map_of_mem hm)
    simp only [List.mem_cons, List.not_mem_nil, or_false] at this
    rcases this with e | e | e | e
    · rw [e] at he; cases he
    · rw [e] at he; cases he
    · rw [e] at he; cases he
    · exact e
  obtain ⟨c, q, h1, h2, h3, h4⟩ := C37_partial hb hm ha h hbd fun c h1 h2 => by rw [hk c h1 h2]; exact hr
  cases h3
  rw [hk c h1 h2] at h4
  exact shows_answer h4 hcols

/-- C139 (partial): a question is cut in two by one of its filters (times before and after, some names and the others). The lines of the two
answers are together those of the whole answer, with the same values and the same levels. Missing: slices with an omitted bound
(`C139_refuted`), storages when there are several and intakes of converters with several sources (their tables are wrong, C34 and C36);
answers that give one value for everything raise (C40). -/
theorem C139_partial (hb : Built s) (hm : Mirrors s r) (ha : Analyzer.init junk s r = .ok a) (hr : Reliable s kind)
    (hc : (calls.map Prod.fst).Perm [.node, .time, .scn, kind])
    (hcut : CutInTwo s ((.network, g) :: calls) ((.network, g') :: calls') ((.network, g'') :: calls''))
    (h : a.ask g calls = .ok (.table (some pt))) (h' : a.ask g' calls' = .ok (.table (some pt')))
    (h'' : a.ask g'' calls'' = .ok (.table (some pt'')))
    (hbd : BoundsGiven calls) (hbd' : BoundsGiven calls') (hbd'' : BoundsGiven calls'')
    (hcols : ∀ c ∈ cols, InTable ((.network, g) :: calls) pt c) (hcols' : ∀ c ∈ cols, InTable ((.network, g') :: calls') pt' c)
    (hcols'' : ∀ c ∈ cols, InTable ((.network, g'') :: calls'') pt'' c) :
    (shows pt cols).Perm (shows pt' cols ++ shows pt'' cols) := by
  classical
  have hk := CutInTwo.kinds hcut
  simp only [List.map_cons, List.cons.injEq, true_and] at hk
  refine (shows_ask hb hm ha hr hc h hbd hcols).trans ?_
  refine List.Perm.trans ?_ ((shows_ask hb hm ha hr (hk.1 ▸ hc) h' hbd' hcols').append
    (shows_ask hb hm ha hr (hk.2 ▸ hc) h'' hbd'' hcols'')).symm
  rw [← List.map_append]
  refine List.Perm.map _ (filter_cut _ _ _ _ fun row hrow => ?_)
  simp only [decide_eq_true_eq]
  exact CutInTwo.matches hcut (tableRows_grid hrow)

/-- C139 (partial): hence totals of columns add up, and so do numbers of lines -/
theorem C139_totals_partial (hb : Built s) (hm : Mirrors s r) (ha : Analyzer.init junk s r = .ok a) (hr : Reliable s kind)
    (hc : (calls.map Prod.fst).Perm [.node, .time, .scn, kind])
    (hcut : CutInTwo s ((.network, g) :: calls) ((.network, g') :: calls') ((.network, g'') :: calls''))
    (h : a.ask g calls = .ok (.table (some pt))) (h' : a.ask g' calls' = .ok (.table (some pt')))
    (h'' : a.ask g'' calls'' = .ok (.table (some pt'')))
    (hbd : BoundsGiven calls) (hbd' : BoundsGiven calls') (hbd'' : BoundsGiven calls'') :
    pt.lines.length = pt'.lines.length + pt''.lines.length ∧
      ∀ col, col ∉ (((.network, g) :: calls).map fun f => f.1.column) → columnTotal pt col = columnTotal pt' col + columnTotal pt'' col := by
  have hk := CutInTwo.kinds hcut
  have hcolumn : ∀ {fs fs' : List (IndexKind × IndexArg)}, fs'.map Prod.fst = fs.map Prod.fst →
      (fs'.map fun f => f.1.column) = fs.map fun f => f.1.column := by
    intro fs fs' e
    have := congrArg (List.map IndexKind.column) e
    simpa [List.map_map, Function.comp_def] using this
  constructor
  · have := (C139_partial (cols := []) hb hm ha hr hc hcut h h' h'' hbd hbd' hbd'' (by simp) (by simp) (by simp)).length_eq
    simpa [shows] using this
  · intro col hcol
    have := C139_partial (cols := [col]) hb hm ha hr hc hcut h h' h'' hbd hbd' hbd'' (by simpa using .inr hcol)
      (by
        intro c e
        rw [List.mem_singleton.mp e]
        exact .inr (by rw [hcolumn hk.1]; exact hcol))
      (by
        intro c e
        rw [List.mem_singleton.mp e]
        exact .inr (by rw [hcolumn hk.2]; exact hcol))
    unfold columnTotal
    rw [(this.map _).sum_eq, List.map_append, List.sum_append]

/-- C139 (partial): a question that asks for less shows some of the lines of the other one, with the same values; the same as many times -/
theorem C139_less_partial (hb : Built s) (hm : Mirrors s r) (ha : Analyzer.init junk s r = .ok a) (hr : Reliable s kind)
    (hc : (calls.map Prod.fst).Perm [.node, .time, .scn, kind])
    (hless : AsksLess s ((.network, g') :: calls') ((.network, g) :: calls))
    (h : a.ask g calls = .ok (.table (some pt))) (h' : a.ask g' calls' = .ok (.table (some pt')))
    (hbd : BoundsGiven calls) (hbd' : BoundsGiven calls')
    (hcols : ∀ c ∈ cols, InTable ((.network, g) :: calls) pt c) (hcols' : ∀ c ∈ cols, InTable ((.network, g') :: calls') pt' c) :
    (shows pt' cols).Subperm (shows pt cols) := by
  classical
  have hk := AsksLess.kinds hless
  simp only [List.map_cons, List.cons.injEq, true_and] at hk
  refine (shows_ask hb hm ha hr (hk ▸ hc) h' hbd' hcols').subperm.trans
    (List.Subperm.trans ?_ (shows_ask hb hm ha hr hc h hbd hcols).symm.subperm)
  refine List.Sublist.subperm (List.Sublist.map _ ?_)
  have : (tableRows s r kind).filter (fun row => decide (Matches s ((.network, g') :: calls') row)) =
      ((tableRows s r kind).filter (fun row => decide (Matches s ((.network, g) :: calls) row))).filter
        (fun row => decide (Matches s ((.network, g') :: calls') row)) := by
    rw [List.filter_filter]
    refine List.filter_congr fun row hrow => ?_
    rw [Bool.eq_iff_iff]
    simp only [Bool.and_eq_true, decide_eq_true_eq]
    exact ⟨fun h => ⟨h, AsksLess.matches hless (tableRows_grid hrow) h⟩, fun h => h.1⟩
  rw [this]
  exact List.filter_sublist

/-! ### Cuts -/

/-- the time steps before `m` and the others -/
theorem cut_times (s : Study) (m : ℕ) (hm : m ≤ s.horizon) (rest : List (IndexKind × IndexArg)) :
    CutInTwo s ((.time, .none) :: rest) ((.time, .slice (some 0) (some m) none) :: rest)
      ((.time, .slice (some m) (some s.horizon) none) :: rest) := by
  have hsel : ∀ (x y : ℤ) (t : ℕ), t < s.horizon → (Selects s.horizon (.slice (some x) (some y) none) (.num t) ↔ x ≤ t ∧ t < y) := by
    intro x y t ht
    constructor
    · rintro ⟨i, e, h1, h2, h3⟩
      have : i = t := by
        have := Cell.num.inj e
        exact_mod_cast this.symm
      subst this
      simp only [InRange, Option.getD_none, Option.getD_some] at h3
      omega
    · rintro ⟨h1, h2⟩
      refine ⟨t, by simp, by omega, by omega, ?_⟩
      simp only [InRange, Option.getD_none, Option.getD_some]
      exact ⟨.inl ⟨by omega, h1, h2⟩, one_dvd _⟩
  refine .here _ _ _ _ _ ?_ ?_
  · rintro c ⟨t, ht, rfl⟩
    show Selects s.horizon .none _ ↔ Selects s.horizon _ _ ∨ Selects s.horizon _ _
    rw [hsel _ _ t ht, hsel _ _ t ht]
    simp only [Selects, true_iff]
    omega
  · rintro c ⟨t, ht, rfl⟩
    show ¬ (Selects s.horizon _ _ ∧ Selects s.horizon _ _)
    rw [hsel _ _ t ht, hsel _ _ t ht]
    omega

/-- `analyzer.network("elec").time(..).node().consumption().scn()` -/
def cutCalls (x : IndexArg) : List (IndexKind × IndexArg) := [(.time, x), (.node, .none), (.cons, .none), (.scn, .none)]

theorem cutCalls_answer {x : IndexArg} (hx : Gives .time x) :
    ∃ pt, anAnalyzer.ask (.one (.str "elec")) (cutCalls x) = .ok (.table (some pt)) :=
  C40_partial anStudy_built anResult_mirrors anAnalyzer_init (kind := .cons) rfl
    (show [IndexKind.time, .node, .cons, .scn].Perm [.node, .time, .scn, .cons] by decide) (.one _) (by
      intro c hc
      simp only [cutCalls, List.mem_cons, List.not_mem_nil, or_false] at hc
      rcases hc with rfl | rfl | rfl | rfl
      · exact hx
      · exact .none
      · exact .none
      · exact .none) ⟨(.node, .none), by simp [cutCalls], .none⟩ (anStudy_reliable _) (by simp)

theorem cutCalls_bounds (x y : ℤ) : BoundsGiven (cutCalls (.slice (some x) (some y) none)) := by
  intro k a b c h
  simp only [cutCalls, List.mem_cons, List.not_mem_nil, or_false, Prod.mk.injEq, reduceCtorEq, and_false] at h
  obtain ⟨-, h⟩ := h
  cases h
  exact ⟨rfl, rfl⟩

/-- the first time step and the second one -/
example : ∃ pt pt' pt'', anAnalyzer.ask (.one (.str "elec")) (cutCalls .none) = .ok (.table (some pt)) ∧
    anAnalyzer.ask (.one (.str "elec")) (cutCalls (.slice (some 0) (some 1) none)) = .ok (.table (some pt')) ∧
    anAnalyzer.ask (.one (.str "elec")) (cutCalls (.slice (some 1) (some 2) none)) = .ok (.table (some pt'')) ∧
    pt.lines.length = pt'.lines.length + pt''.lines.length ∧ columnTotal pt "given" = columnTotal pt' "given" + columnTotal pt'' "given" := by
  obtain ⟨pt, h⟩ := cutCalls_answer .none
  obtain ⟨pt', h'⟩ := cutCalls_answer (.slice 0 1 none ⟨0, .inl ⟨by decide, by decide, by decide⟩, by decide⟩ (.inl rfl))
  obtain ⟨pt'', h''⟩ := cutCalls_answer (.slice 1 2 none ⟨1, .inl ⟨by decide, by decide, by decide⟩, by decide⟩ (.inl rfl))
  have hh : anStudy.horizon = 2 := by decide +kernel
  have hcut := cut_times anStudy 1 (by omega) [(.node, .none), (.cons, .none), (.scn, .none)]
  rw [hh] at hcut
  have := C139_totals_partial anStudy_built anResult_mirrors anAnalyzer_init (anStudy_reliable .cons) (calls := cutCalls .none)
    (show [IndexKind.time, .node, .cons, .scn].Perm [.node, .time, .scn, .cons] by decide) (.there _ hcut) h h' h''
    (by intro k a b c h; simp [cutCalls] at h) (cutCalls_bounds 0 1) (cutCalls_bounds 1 2)
  exact ⟨pt, pt', pt'', h, h', h'', this.1, this.2 "given" (by decide)⟩

/-- the first time step is part of the whole -/
example : ∃ pt pt', anAnalyzer.ask (.one (.str "elec")) (cutCalls .none) = .ok (.table (some pt)) ∧
    anAnalyzer.ask (.one (.str "elec")) (cutCalls (.slice (some 0) (some 1) none)) = .ok (.table (some pt')) ∧
    (shows pt' ["asked", "given"]).Subperm (shows pt ["asked", "given"]) := by
  obtain ⟨pt, h⟩ := cutCalls_answer .none
  obtain ⟨pt', h'⟩ := cutCalls_answer (.slice 0 1 none ⟨0, .inl ⟨by decide, by decide, by decide⟩, by decide⟩ (.inl rfl))
  refine ⟨pt, pt', h, h', ?_⟩
  refine C139_less_partial anStudy_built anResult_mirrors anAnalyzer_init (anStudy_reliable .cons) (calls := cutCalls .none)
    (show [IndexKind.time, .node, .cons, .scn].Perm [.node, .time, .scn, .cons] by decide) ?_ h h'
    (by intro k a b c h; simp [cutCalls] at h) (cutCalls_bounds 0 1) ?_ ?_
  · refine .cons ⟨rfl, fun _ _ h => h⟩ (.cons ⟨rfl, fun _ _ _ => trivial⟩ (.cons ⟨rfl, fun _ _ h => h⟩ (.cons ⟨rfl, fun _ _ h => h⟩
      (.cons ⟨rfl, fun _ _ h => h⟩ .nil))))
  · intro c hc
    exact .inr (by revert c; decide)
  · intro c hc
    exact .inr (by revert c; decide)

/-! ### Refuted -/

/-- number of lines of an answer of the example study -/
def cutLines (x : IndexArg) : Option ℕ :=
  match Analyzer.init (fun _ _ _ => .nan) anStudy anResult with
  | .ok a => match a.ask (.one (.str "elec")) (cutCalls x) with
    | .ok (.table (some pt)) => some pt.lines.length
    | _ => none
  | _ => none

/-- C139 fails with slices whose start is omitted: the times before 1 and the others are cut in two, but the answers have 0 and 4 lines
instead of 8 in all -/
theorem C139_refuted : CutInTwo anStudy (cutCalls .none) (cutCalls (.slice none (some 1) none)) (cutCalls (.slice (some 1) (some 2) none)) ∧
    cutLines .none = some 8 ∧ cutLines (.slice none (some 1) none) = some 0 ∧ cutLines (.slice (some 1) (some 2) none) = some 4 := by
  refine ⟨?_, by decide +kernel, by decide +kernel, by decide +kernel⟩
  have hh : anStudy.horizon = 2 := by decide +kernel
  have := cut_times anStudy 1 (by omega) [(.node, .none), (.cons, .none), (.scn, .none)]
  rw [hh] at this
  have he : ∀ c, Selects (extent anStudy .time) (.slice none (some 1) none) c ↔ Selects (extent anStudy .time) (.slice (some 0) (some 1) none) c := by
    intro c
    simp [Selects, InSlice]
  cases this with
  | here k x y z rest all once =>
    refine .here _ _ _ _ _ ?_ ?_
    · intro c hc
      rw [he]
      exact all c hc
    · intro c hc
      rw [he]
      exact once c hc

end Hadar.Props
