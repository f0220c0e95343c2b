import Verif.Proofs.Viewer

/-! # Stack charts -/

namespace Hadar

open Spec

/-! ### Order of bands -/

/-- names in order of appearance in lines sorted by decreasing cost -/
theorem unique_ranked {α β : Type} [DecidableEq β] (key : α → β) (f : α → ℚ) (l : List α)
    (h : l.Pairwise fun a b => f b ≤ f a) :
    (Viewer.unique (l.map key)).Pairwise fun x y =>
      ∀ b ∈ l, key b = y → ∃ a ∈ l, key a = x ∧ f b ≤ f a := by
  induction l using List.reverseRec with
  | nil => simp [Viewer.unique]
  | append_singleton l z ih =>
    rw [List.pairwise_append] at h
    have hz : ∀ a ∈ l, f z ≤ f a := fun a ha => h.2.2 a ha z (by simp)
    have ih := ih h.1
    have mem : ∀ x ∈ Viewer.unique (l.map key), ∃ a ∈ l, key a = x := by
      intro x hx
      exact List.mem_map.mp (viewer_mem_unique.mp hx)
    have ih' : (Viewer.unique (l.map key)).Pairwise fun x y =>
        ∀ b ∈ l ++ [z], key b = y → ∃ a ∈ l ++ [z], key a = x ∧ f b ≤ f a := by
      refine ih.imp_of_mem ?_
      intro x y hx hy hxy b hb hby
      rcases List.mem_append.mp hb with hb | hb
      · obtain ⟨a, ha, h1, h2⟩ := hxy b hb hby
        exact ⟨a, by simp [ha], h1, h2⟩
      · obtain rfl := List.mem_singleton.mp hb
        obtain ⟨a, ha, h1⟩ := mem x hx
        exact ⟨a, by simp [ha], h1, hz a ha⟩
    rw [List.map_append, List.map_singleton, viewer_unique_snoc]
    split_ifs with hin
    · exact ih'
    · rw [List.pairwise_append]
      refine ⟨ih', List.pairwise_singleton _ _, ?_⟩
      intro x hx y hy b hb hby
      obtain rfl := List.mem_singleton.mp hy
      rcases List.mem_append.mp hb with hb | hb
      · exact absurd (List.mem_map.mpr ⟨b, hb, hby⟩) hin
      · obtain rfl := List.mem_singleton.mp hb
        obtain ⟨a, ha, h1⟩ := mem x hx
        exact ⟨a, by simp [ha], h1, hz a ha⟩

theorem perm_map_exists {α β : Type} {f : α → β} {l : List β} {m : List α} (h : l.Perm (m.map f)) :
    ∃ m' : List α, m'.Perm m ∧ l = m'.map f := by
  have h2 : List.Forall₂ (fun b a => b = f a) (m.map f) m := by
    rw [List.forall₂_map_left_iff, List.forall₂_same]
    intro _ _; rfl
  obtain ⟨m', h3, h4⟩ := List.perm_comp_forall₂ h h2
  refine ⟨m', h4, ?_⟩
  clear h h2 h4
  induction h3 with
  | nil => rfl
  | cons h _ ih => rw [h, ih, List.map_cons]

theorem flatMap_filter_key {E α κ : Type} [DecidableEq κ] {items : List E} {key : E → κ} {B : E → List α}
    (hn : (items.map key).Nodup) {e : E} (he : e ∈ items) {P : α → Bool}
    (hP : ∀ x ∈ items, ∀ y ∈ B x, P y = decide (key x = key e)) :
    (items.flatMap B).filter P = B e := by
  rw [List.filter_flatMap]
  have : ∀ x ∈ items, (B x).filter P = if key x = key e then B x else [] := by
    intro x hx
    split_ifs with h
    · rw [List.filter_eq_self]
      intro y hy
      rw [hP x hx y hy]; simp [h]
    · rw [List.filter_eq_nil_iff]
      intro y hy
      rw [hP x hx y hy]; simp [h]
  rw [List.flatMap_congr this]
  clear this hP
  induction items with
  | nil => cases he
  | cons x xs ih =>
    rw [List.map_cons, List.nodup_cons] at hn
    rw [List.flatMap_cons]
    rcases List.mem_cons.mp he with rfl | he'
    · rw [if_pos rfl, List.flatMap_eq_nil_iff.mpr, List.append_nil]
      intro y hy
      rw [if_neg]
      intro h
      exact hn.1 (h ▸ List.mem_map_of_mem hy)
    · rw [if_neg, ih hn.2 he', List.nil_append]
      intro h
      exact hn.1 (h ▸ List.mem_map_of_mem he')

/-! ### `extract` -/

/-- the lines of a table of bands -/
def bandLines {E : Type} (h : ℕ) (F : List E) (nm : E → String) (D : E → ℕ → Dict String Cell) :
    List Viewer.Line :=
  F.flatMap fun e => (List.range h).map fun t : ℕ => ([Cell.str (nm e), Cell.num t], D e t)

theorem bands_ok {E : Type} {h : ℕ} (hh : 0 < h) {F : List E} {nm : E → String} (hn : (F.map nm).Nodup)
    {D : E → ℕ → Dict String Cell} {lines : List Viewer.Line} (hp : lines.Perm (bandLines h F nm D))
    {V : E → ℕ → ℚ} {col : String} (hV : ∀ e ∈ F, ∀ t k, Viewer.Line.value (k, D e t) col = .ok (V e t)) :
    ∃ F' : List E, F'.Perm F ∧
      Viewer.unique (lines.map fun l => l.1.getD 0 .nan) = F'.map (fun e => Cell.str (nm e)) ∧
      (F'.map fun e => Cell.str (nm e)).mapM (fun i => do
        let y ← Viewer.column (Viewer.sortIndex (Viewer.loc lines i)) col
        pure (i, y)) = Except.ok (ε := PyErr) (F'.map fun e => (Cell.str (nm e), (List.range h).map (V e))) := by
  have hperm : (Viewer.unique (lines.map fun l => l.1.getD 0 .nan)).Perm (F.map fun e => Cell.str (nm e)) := by
    rw [List.perm_ext_iff_of_nodup (viewer_unique_nodup _)]
    · intro c
      rw [viewer_mem_unique]
      simp only [List.mem_map, hp.mem_iff, bandLines, List.mem_flatMap, List.mem_range]
      constructor
      · rintro ⟨l, ⟨e, he, t, _, rfl⟩, rfl⟩
        exact ⟨e, he, rfl⟩
      · rintro ⟨e, he, rfl⟩
        exact ⟨_, ⟨e, he, 0, hh, rfl⟩, rfl⟩
    · have : (F.map fun e => Cell.str (nm e)) = (F.map nm).map Cell.str := by rw [List.map_map]; rfl
      rw [this]
      exact hn.map fun a b h => by simpa using h
  obtain ⟨F', h1, h2⟩ := perm_map_exists hperm
  refine ⟨F', h1, h2, ?_⟩
  rw [List.mapM_map]
  refine mapM_ok ?_
  intro e he
  have heF : e ∈ F := h1.mem_iff.mp he
  have hloc : (Viewer.loc lines (.str (nm e))).Perm
      ((List.range h).map fun t : ℕ => ([Cell.num t], D e t)) := by
    unfold Viewer.loc
    refine ((hp.filter _).map _).trans (List.Perm.of_eq ?_)
    unfold bandLines
    rw [flatMap_filter_key (key := nm) hn heF]
    · rw [List.map_map]; rfl
    · intro x _ y hy
      obtain ⟨t, _, rfl⟩ := List.mem_map.mp hy
      simp
  have hsort : Viewer.sortIndex (Viewer.loc lines (.str (nm e))) =
      (List.range h).map fun t : ℕ => ([Cell.num t], D e t) := by
    refine lines_eq ((List.perm_insertionSort _ _).trans hloc) ?_ ?_ ?_
    · have : Std.Total fun a b : Viewer.Line => Cell.keyLe a.1 b.1 = true :=
        ⟨fun a b => by simpa using Cell.keyLe_total a.1 b.1⟩
      have : IsTrans Viewer.Line fun a b => Cell.keyLe a.1 b.1 = true :=
        ⟨fun a b c => Cell.keyLe_trans⟩
      exact List.pairwise_insertionSort _ _
    · exact single_lines_sorted _
    · rw [List.map_map]
      exact single_keys_nodup _
  simp only [Function.comp_apply, hsort]
  rw [column_ok (f := V e) (by simp; omega) fun t _ => hV e heF t _]
  rfl

theorem column_values {lines : List Viewer.Line} {col : String} (h0 : lines ≠ [])
    (h : ∀ l ∈ lines, ∃ q, Viewer.Line.value l col = .ok q) : ∃ v, Viewer.column lines col = .ok v := by
  unfold Viewer.column
  rw [if_neg h0]
  exact ⟨_, mapM_ok (g := fun l => (Viewer.Line.value l col).toOption.getD 0) fun l hl => by
    obtain ⟨q, hq⟩ := h l hl
    rw [hq]; rfl⟩

theorem levelValues_name {pt : Pivot} (h : pt.levels = ["name", "t"]) :
    Viewer.levelValues pt "name" = .ok (pt.lines.map fun l => l.1.getD 0 .nan) := by
  unfold Viewer.levelValues Analyzer.level
  rw [h, if_pos (by simp)]
  rfl

theorem extract_plain {E : Type} {h : ℕ} (hh : 0 < h) {F : List E} {nm : E → String} (hn : (F.map nm).Nodup)
    {D : E → ℕ → Dict String Cell} {pt : Pivot} (hlev : pt.levels = ["name", "t"])
    (hp : pt.lines.Perm (bandLines h F nm D)) {V : E → ℕ → ℚ} {col : String}
    (hV : ∀ e ∈ F, ∀ t k, Viewer.Line.value (k, D e t) col = .ok (V e t)) (srt : Viewer.SortValues) :
    ∃ F' : List E, F'.Perm F ∧ Viewer.extract srt pt col none =
      .ok (F'.map fun e => (Cell.str (nm e), (List.range h).map (V e))) := by
  obtain ⟨F', h1, h2, h3⟩ := bands_ok hh hn hp hV
  refine ⟨F', h1, ?_⟩
  unfold Viewer.extract
  simp only [pure, Except.pure, bind, Except.bind]
  rw [levelValues_name (pt := { pt with lines := pt.lines }) hlev]
  simp only [h2]
  exact h3

theorem extract_sorted {E : Type} {h : ℕ} (hh : 0 < h) {F : List E} (h0 : F ≠ []) {nm : E → String} (hn : (F.map nm).Nodup)
    {D : E → ℕ → Dict String Cell} {pt : Pivot} (hlev : pt.levels = ["name", "t"])
    (hp : pt.lines.Perm (bandLines h F nm D)) {V C : E → ℕ → ℚ} {col cost : String}
    (hV : ∀ e ∈ F, ∀ t k, Viewer.Line.value (k, D e t) col = .ok (V e t))
    (hC : ∀ e ∈ F, ∀ t k, Viewer.Line.value (k, D e t) cost = .ok (C e t)) {srt : Viewer.SortValues}
    (hs : Descending srt) :
    ∃ F' : List E, F'.Perm F ∧ Viewer.extract srt pt col (some cost) =
      .ok (F'.map fun e => (Cell.str (nm e), (List.range h).map (V e))) ∧
      F'.Pairwise fun e e' => ∀ t' < h, ∃ t < h, C e' t' ≤ C e t := by
  obtain ⟨v, hv⟩ := column_values (lines := pt.lines) (col := cost) (by
    intro h1
    rw [h1] at hp
    obtain ⟨e, he⟩ := List.exists_mem_of_ne_nil F h0
    have := List.flatMap_eq_nil_iff.mp hp.symm.eq_nil e he
    simp only [List.map_eq_nil_iff, List.range_eq_nil] at this
    omega) (by
    intro l hl
    rw [hp.mem_iff] at hl
    simp only [bandLines, List.mem_flatMap, List.mem_map] at hl
    obtain ⟨e, he, t, _, rfl⟩ := hl
    exact ⟨_, hC e he t _⟩)
  obtain ⟨hs1, hs2⟩ := hs (fun l => (Viewer.Line.value l cost).toOption.getD 0) pt.lines
  obtain ⟨F', h1, h2, h3⟩ := bands_ok hh hn (hs1.trans hp) hV
  refine ⟨F', h1, ?_, ?_⟩
  · unfold Viewer.extract
    simp only [pure, Except.pure, bind, Except.bind, hv]
    rw [levelValues_name (pt := ⟨pt.levels, srt (fun l => (Viewer.Line.value l cost).toOption.getD 0) pt.lines⟩) hlev]
    simp only [h2]
    exact h3
  · have hr := unique_ranked (fun l : Viewer.Line => l.1.getD 0 .nan) _ _ hs2
    rw [h2, List.pairwise_map] at hr
    refine hr.imp_of_mem ?_
    intro e e' he he' hee t' ht'
    have mem : ∀ e ∈ F, ∀ t < h, ([Cell.str (nm e), Cell.num t], D e t) ∈
        srt (fun l => (Viewer.Line.value l cost).toOption.getD 0) pt.lines := by
      intro e he t ht
      rw [(hs1.trans hp).mem_iff]
      simp only [bandLines, List.mem_flatMap, List.mem_map]
      exact ⟨e, he, t, List.mem_range.mpr ht, rfl⟩
    obtain ⟨l, hl, h4, h5⟩ := hee _ (mem e' (h1.mem_iff.mp he') t' ht') rfl
    rw [(hs1.trans hp).mem_iff] at hl
    simp only [bandLines, List.mem_flatMap, List.mem_map] at hl
    obtain ⟨x, hx, t, ht, rfl⟩ := hl
    have hxe : nm x = nm e := by simpa using h4
    have hxe : x = e := List.inj_on_of_nodup_map hn hx (h1.mem_iff.mp he) hxe
    subst hxe
    refine ⟨t, List.mem_range.mp ht, ?_⟩
    rw [hC e' (h1.mem_iff.mp he'), hC x hx] at h5
    exact h5

/-! ### The elements of a node -/

open Classical in
/-- the rows asked for a part of the stack -/
theorem Listed.part {junk : Junk} {s : Study} {r : Result} {a : Analyzer} (hb : Built s)
    (hm : Mirrors s r) (ha : Analyzer.init junk s r = .ok a) {kind : IndexKind} {E : Type} {items : List E}
    {R : E → ℕ → ℕ → Row} {idf : E → String × String × String} (h : Listed s r kind items R idf)
    (he : kind.isElement = true) (hname : kind.column = "name") (hr : Drawable s kind)
    (hcv : kind = .srcConv ∨ kind = .destConv → s.converters ≠ []) {g d : String} {k : ℕ} (hk : k < s.nbScn)
    (hh : 0 < s.horizon) {F : List E}
    (hF : items.filter (fun e => scope (some d) (some g) ((idf e).1, (idf e).2.1)) = F) (h0 : F ≠ []) :
    ∃ pt, Viewer.query a g [(.scn, .one (.num ((k : ℤ) : ℚ))), (.node, .one (.str d)), (kind, .none),
        (.time, .none)] = .ok pt ∧ pt.levels = ["name", "t"] ∧
      pt.lines.Perm (bandLines s.horizon F (fun e => (idf e).2.2) fun e t => strip kind (R e k t)) ∧
      (F.map fun e => (idf e).2.2).Nodup := by
  obtain ⟨pt, hpt, hA⟩ := viewer_query hb hm ha he (g := g) (calls := [(.scn, .one (.num ((k : ℤ) : ℚ))),
    (.node, .one (.str d)), (kind, .none), (.time, .none)]) (by
      simp only [List.map_cons, List.map_nil]
      refine (List.Perm.swap _ _ _).trans (List.Perm.cons _ ?_)
      exact List.perm_append_comm (l₁ := [IndexKind.scn, kind]) (l₂ := [IndexKind.time]) |>.trans
        (List.Perm.refl _)) (by
      simp) (by simp) hr.toReliable hcv
  have hp := h.answer hA hr (Pe := fun e => scope (some d) (some g) ((idf e).1, (idf e).2.1))
    (Pp := fun p => decide (p.1 = k)) (by
      intro e' k' t'
      obtain ⟨h1, h2, h3, h4, h5⟩ := h.at e' k' t'
      simp only [matches_cons, matches_nil, selects_one, selects_none, column_network, column_node,
        column_scn, h1, h2, h4, decide_eq_true_eq, scope, Option.isNone_some, Bool.false_or,
        Bool.and_eq_true, Option.some.injEq, Cell.str.injEq, Cell.num.injEq]
      constructor
      · rintro ⟨h6, h7, h8, -⟩
        exact ⟨⟨h6.symm, h8.symm⟩, by exact_mod_cast h7⟩
      · rintro ⟨⟨h6, h8⟩, h7⟩
        exact ⟨h6.symm, by exact_mod_cast h7, h8.symm, trivial, trivial, trivial⟩) (filter_scn hk) (by
    intro c
    simp only [List.map_cons, List.map_nil, keyColumns, column_network, column_node, column_time, column_scn,
      List.mem_cons, List.not_mem_nil, or_false]
    tauto)
  rw [hF] at hp
  have hl : pt.lines ≠ [] := by
    intro h1
    rw [h1] at hp
    have h2 := hp.symm.eq_nil
    obtain ⟨e, he⟩ := List.exists_mem_of_ne_nil F h0
    have := List.flatMap_eq_nil_iff.mp h2 e he
    simp only [List.map_eq_nil_iff, List.range_eq_nil] at this
    omega
  have hlev := hA.levels_after (ones := [(.network, .one (.str g)), (.scn, .one (.num ((k : ℤ) : ℚ))),
      (.node, .one (.str d))]) (rest := [(kind, .none), (.time, .none)])
      (by simp only [List.mem_cons, List.not_mem_nil, or_false, forall_eq_or_imp, forall_eq]
          exact ⟨.one _, .one _, .one _⟩) (by simp) hl
  simp only [List.map_cons, List.map_nil, hname, column_time] at hlev
  refine ⟨pt, hpt, hlev, ?_, ?_⟩
  · rw [hlev] at hp
    unfold bandLines
    refine hp.trans (List.Perm.of_eq (List.flatMap_congr ?_))
    intro e _
    rw [List.map_map]
    refine List.map_congr_left ?_
    intro t _
    obtain ⟨h1, h2, h3, h4, h5⟩ := h.at e k t
    rw [hname] at h3
    simp [h3, h5]
  · subst hF
    have h1 := h.nodup
    have h2 : ((items.filter fun e => scope (some d) (some g) ((idf e).1, (idf e).2.1)).map idf).Nodup :=
      (List.filter_sublist.map idf).nodup h1
    refine List.Nodup.map_on ?_ h2.of_map
    intro x hx y hy hxy
    simp only [List.mem_filter, scope, Option.isNone_some, Bool.false_or, Bool.and_eq_true,
      decide_eq_true_eq, Option.some.injEq] at hx hy
    refine List.inj_on_of_nodup_map h1 hx.1 hy.1 ?_
    exact Prod.ext (hx.2.1.symm.trans hy.2.1) (Prod.ext (hx.2.2.symm.trans hy.2.2) hxy)

theorem part_ranked {junk : Junk} {s : Study} {r : Result} {a : Analyzer} (hb : Built s)
    (hm : Mirrors s r) (ha : Analyzer.init junk s r = .ok a) {kind : IndexKind} {E : Type} {items : List E}
    {R : E → ℕ → ℕ → Row} {idf : E → String × String × String} (h : Listed s r kind items R idf)
    (he : kind.isElement = true) (hname : kind.column = "name")
    (hcv : kind ≠ .srcConv ∧ kind ≠ .destConv) {g d : String} {k : ℕ} (hk : k < s.nbScn)
    (hh : 0 < s.horizon) {F : List E}
    (hF : items.filter (fun e => scope (some d) (some g) ((idf e).1, (idf e).2.1)) = F)
    (hr : F ≠ [] → Drawable s kind) {n : ℕ}
    (hn : n = F.length) {V C : E → ℕ → ℚ} {col : String} (hcol : col ∉ keyColumns kind)
    (hV : ∀ e t, Row.at (R e k t) col = .num (V e t)) (hcost : "cost" ∉ keyColumns kind)
    (hC : ∀ e t, Row.at (R e k t) "cost" = .num (C e t)) {srt : Viewer.SortValues} (hs : Descending srt)
    {l : List (String × (ℕ → ℚ) × (ℕ → ℚ))} (hl : F.map (fun e => ((idf e).2.2, C e, V e)) = l) :
    ∃ out, Viewer.part a srt g d (k : ℤ) n kind col (some "cost") = .ok out ∧ RankedOf s l out := by
  unfold Viewer.part
  by_cases h0 : F = []
  · subst h0
    rw [if_neg (by simp [hn])]
    exact ⟨[], rfl, [], by rw [← hl]; rfl, rfl, List.Pairwise.nil⟩
  · rw [if_pos (by rw [hn]; exact List.length_pos_iff.mpr h0)]
    obtain ⟨pt, h1, h2, h3, h4⟩ := h.part hb hm ha he hname (hr h0) (by tauto) hk hh hF h0
    obtain ⟨F', h5, h6, h7⟩ := extract_sorted hh h0 h4 h2 h3 (V := V) (C := C) (col := col) (cost := "cost")
      (fun e _ t _ => strip_value hcol (hV e t) _) (fun e _ t _ => strip_value hcost (hC e t) _) hs
    rw [h1]
    refine ⟨_, h6, F'.map fun e => ((idf e).2.2, C e, V e), ?_, ?_, ?_⟩
    · rw [← hl]; exact h5.map _
    · rw [List.map_map]; rfl
    · rw [List.pairwise_map]
      exact h7

theorem part_plain {junk : Junk} {s : Study} {r : Result} {a : Analyzer} (hb : Built s)
    (hm : Mirrors s r) (ha : Analyzer.init junk s r = .ok a) {kind : IndexKind} {E : Type} {items : List E}
    {R : E → ℕ → ℕ → Row} {idf : E → String × String × String} (h : Listed s r kind items R idf)
    (he : kind.isElement = true) (hname : kind.column = "name")
    (hcv : items ≠ [] → s.converters ≠ []) {g d : String} {k : ℕ} (hk : k < s.nbScn)
    (hh : 0 < s.horizon) {F : List E}
    (hF : items.filter (fun e => scope (some d) (some g) ((idf e).1, (idf e).2.1)) = F)
    (hr : F ≠ [] → Drawable s kind) {n : ℕ}
    (hn : n = F.length) {V : E → ℕ → ℚ} {col : String} (hcol : col ∉ keyColumns kind)
    (hV : ∀ e ∈ F, ∀ t, Row.at (R e k t) col = .num (V e t)) (srt : Viewer.SortValues)
    {l : List (String × (ℕ → ℚ))} (hl : F.map (fun e => ((idf e).2.2, V e)) = l) :
    ∃ out, Viewer.part a srt g d (k : ℤ) n kind col none = .ok out ∧ BandsOf s l out := by
  unfold Viewer.part
  by_cases h0 : F = []
  · subst h0
    rw [if_neg (by simp [hn])]
    exact ⟨[], rfl, by rw [← hl]; exact List.Perm.refl _⟩
  · rw [if_pos (by rw [hn]; exact List.length_pos_iff.mpr h0)]
    obtain ⟨pt, h1, h2, h3, h4⟩ := h.part hb hm ha he hname (hr h0) (fun _ => hcv (by
      rintro rfl
      exact h0 (by rw [← hF]; rfl))) hk hh hF h0
    obtain ⟨F', h5, h6⟩ := extract_plain hh h4 h2 h3 (V := V) (col := col)
      (fun e he t _ => strip_value hcol (hV e he t) _) srt
    rw [h1]
    refine ⟨_, h6, ?_⟩
    unfold BandsOf
    rw [← hl, List.map_map]
    exact h5.map _

theorem node_elements {α : Type} {s : Study} (hi : StudyInv s) (sel : InputNode → List α) {g d : String}
    {n : InputNode} (hn : HasNode s g d n) :
    (elements s sel).filter (fun e => scope (some d) (some g) (e.1, e.2.1)) =
      (sel n).zipIdx.map fun e => (g, d, e.2, e.1) := by
  rw [elements_filter s sel (fun x => scope (some d) (some g) x), places_node hi hn]
  simp

theorem node_sources {s : Study} (hi : StudyInv s) (r : Result) (g d : String) (k : ℕ) :
    ((sources s).filter fun e => scope (some d) (some g) (e.2.2.1, e.2.2.2.1)).map
      (fun e => (e.2.1, (dispatchOf s r k).convSrc e.2.1 (g, d))) = departureBands s r g d k := by
  have key : ∀ p ∈ s.converters, ((p.2.srcRatios.map fun q =>
      (p.2, p.1, q.1.getD 0 "", q.1.getD 1 "", q.2)).filter fun e =>
        scope (some d) (some g) (e.2.2.1, e.2.2.2.1)).map
      (fun e => (e.2.1, (dispatchOf s r k).convSrc e.2.1 (g, d))) =
      if [g, d] ∈ p.2.srcRatios.map Prod.fst then [(p.1, (dispatchOf s r k).convSrc p.1 (g, d))] else [] := by
    intro p hp
    have hnd := hi.names.sources p hp
    have hsh : ∀ q ∈ p.2.srcRatios, ∃ g d, q.1 = [g, d] := by
      intro q hq
      obtain ⟨g, d, _, e, _⟩ := (hi.convs p hp).sources q.1 (List.mem_map_of_mem hq)
      exact ⟨g, d, e⟩
    generalize p.2.srcRatios = l at hnd hsh
    induction l with
    | nil => simp
    | cons q l ih =>
      rw [List.map_cons, List.nodup_cons] at hnd
      have ih := ih hnd.2 fun q hq => hsh q (by simp [hq])
      obtain ⟨g', d', e⟩ := hsh q (by simp)
      rw [List.map_cons, List.filter_cons, List.map_cons]
      by_cases h : q.1 = [g, d]
      · have h' := h
        rw [e] at h'
        simp only [List.cons.injEq, and_true] at h'
        rw [if_pos (by simp [scope, e, h'.1, h'.2]), List.map_cons, ih, if_neg (by rw [← h]; exact hnd.1),
          if_pos (by simp [h])]
      · rw [if_neg, ih]
        · have : ([g, d] ∈ q.1 :: l.map Prod.fst) ↔ [g, d] ∈ l.map Prod.fst := by
            simp only [List.mem_cons, or_iff_right_iff_imp]
            intro h2; exact absurd h2.symm h
          simp only [this]
        · rw [e] at h
          simp only [scope, e]
          simp only [List.cons.injEq, and_true] at h
          simp
          intro h1 h2
          exact h ⟨h1.symm, h2.symm⟩
  unfold sources departureBands
  generalize s.converters = cs at key
  induction cs with
  | nil => rfl
  | cons p cs ih =>
    rw [List.flatMap_cons, List.filter_append, List.map_append, key p (by simp),
      ih fun q hq => key q (by simp [hq]), List.filter_cons]
    split_ifs <;> simp_all

/-! ### Piling up -/

theorem getD_zipWith {a b : List ℚ} (h : b.length = a.length) (t : ℕ) :
    (List.zipWith (· + ·) a b).getD t 0 = a.getD t 0 + b.getD t 0 := by
  simp only [List.getD_eq_getElem?_getD, List.getElem?_zipWith]
  by_cases ht : t < a.length
  · rw [List.getElem?_eq_getElem ht, List.getElem?_eq_getElem (h ▸ ht)]; rfl
  · rw [List.getElem?_eq_none (by omega), List.getElem?_eq_none (by omega)]; simp

theorem stackUp_ok {entries : List (Cell × List ℚ)} {acc : List ℚ} (h : ∀ p ∈ entries, p.2.length = acc.length) :
    ∃ drawn, Viewer.stackUp acc entries = .ok drawn ∧ drawn.map Prod.fst = entries.map Prod.fst ∧
      (∀ p ∈ drawn, p.2.length = acc.length) ∧
      ∀ (i : ℕ) (p : Cell × List ℚ), drawn[i]? = some p → ∀ t, p.2.getD t 0 =
        acc.getD t 0 + sumL (entries.take (i + 1)) fun e => e.2.getD t 0 := by
  induction entries generalizing acc with
  | nil => exact ⟨[], rfl, rfl, by simp, by simp⟩
  | cons e es ih =>
    obtain ⟨name, data⟩ := e
    have hd : data.length = acc.length := h (name, data) (by simp)
    have hlen : (List.zipWith (· + ·) acc data).length = acc.length := by simp [hd]
    obtain ⟨drawn, h1, h2, h3, h4⟩ := ih (acc := List.zipWith (· + ·) acc data) fun p hp => by
      rw [hlen]; exact h p (by simp [hp])
    refine ⟨(name, List.zipWith (· + ·) acc data) :: drawn, ?_, by simp [h2], ?_, ?_⟩
    · unfold Viewer.stackUp
      rw [if_pos hd]
      simp only [h1, bind, Except.bind]
      rfl
    · intro p hp
      rcases List.mem_cons.mp hp with rfl | hp
      · exact hlen
      · rw [h3 p hp, hlen]
    · intro i p hp t
      cases i with
      | zero =>
        simp only [List.getElem?_cons_zero, Option.some.injEq] at hp
        subst hp
        rw [getD_zipWith hd]
        simp [sumL]
      | succ i =>
        rw [List.getElem?_cons_succ] at hp
        rw [h4 i p hp t, getD_zipWith hd, List.take_succ_cons]
        simp only [sumL, List.map_cons, List.sum_cons]
        ring

theorem stackUp_piled {h : ℕ} {entries : List (Cell × List ℚ)} (hl : ∀ p ∈ entries, p.2.length = h) :
    ∃ drawn, Viewer.stackUp (List.replicate h 0) entries = .ok drawn ∧ Piled h entries drawn := by
  obtain ⟨drawn, h1, h2, h3, h4⟩ := stackUp_ok (entries := entries) (acc := List.replicate h 0) (by simpa using hl)
  refine ⟨drawn, h1, h2, by simpa using h3, ?_⟩
  intro i p hp t ht
  rw [h4 i p hp t]
  simp [ht]

/-- the top of a pile is the sum of all entries -/
theorem piled_top {h : ℕ} {entries drawn : List (Cell × List ℚ)} (hp : Piled h entries drawn) {t : ℕ} (ht : t < h) :
    (match drawn.getLast? with
      | some p => p.2.getD t 0
      | none => 0) = sumL entries fun e => e.2.getD t 0 := by
  obtain ⟨h1, h2, h3⟩ := hp
  have hlen : drawn.length = entries.length := by
    have := congrArg List.length h1
    simpa using this
  cases hl : drawn.getLast? with
  | none =>
    rw [List.getLast?_eq_none_iff] at hl
    rw [hl] at hlen
    rw [List.eq_nil_of_length_eq_zero hlen.symm]; rfl
  | some p =>
    rw [List.getLast?_eq_getElem?] at hl
    have hpos : 0 < drawn.length := by
      by_contra h0
      rw [List.getElem?_eq_none (by omega)] at hl; cases hl
    have := h3 _ p hl t ht
    rw [List.take_of_length_le (by omega)] at this
    exact this

theorem over_getD (s : Study) (f : ℕ → ℚ) {t : ℕ} (ht : t < s.horizon) : (over s f).getD t 0 = f t := by
  unfold over
  rw [List.getD_eq_getElem?_getD, List.getElem?_map, List.getElem?_range ht]; rfl

theorem over_length (s : Study) (f : ℕ → ℚ) : (over s f).length = s.horizon := by simp [over]

theorem sumL_perm {α : Type} {l l' : List α} (h : l.Perm l') (f : α → ℚ) : sumL l f = sumL l' f :=
  (h.map f).sum_eq

theorem Spec.RankedOf.sum {s : Study} {l : List (String × (ℕ → ℚ) × (ℕ → ℚ))} {out : List (Cell × List ℚ)}
    (h : RankedOf s l out) {t : ℕ} (ht : t < s.horizon) :
    sumL out (fun e => e.2.getD t 0) = sumL l fun e => e.2.2 t := by
  obtain ⟨order, h1, rfl, _⟩ := h
  rw [sumL_map, ← sumL_perm h1]
  exact sumL_congr fun e _ => over_getD s _ ht

theorem Spec.RankedOf.lengths {s : Study} {l : List (String × (ℕ → ℚ) × (ℕ → ℚ))} {out : List (Cell × List ℚ)}
    (h : RankedOf s l out) : ∀ p ∈ out, p.2.length = s.horizon := by
  obtain ⟨order, h1, rfl, _⟩ := h
  intro p hp
  obtain ⟨e, _, rfl⟩ := List.mem_map.mp hp
  exact over_length s _

theorem Spec.BandsOf.sum {s : Study} {l : List (String × (ℕ → ℚ))} {out : List (Cell × List ℚ)}
    (h : BandsOf s l out) {t : ℕ} (ht : t < s.horizon) :
    sumL out (fun e => e.2.getD t 0) = sumL l fun e => e.2 t := by
  rw [sumL_perm h, sumL_map]
  exact sumL_congr fun e _ => over_getD s _ ht

theorem Spec.BandsOf.lengths {s : Study} {l : List (String × (ℕ → ℚ))} {out : List (Cell × List ℚ)}
    (h : BandsOf s l out) : ∀ p ∈ out, p.2.length = s.horizon := by
  intro p hp
  rw [h.mem_iff] at hp
  obtain ⟨e, _, rfl⟩ := List.mem_map.mp hp
  exact over_length s _

theorem exchange_ok (s : Study) (name : String) (v : ℕ → ℚ) :
    ExchangeOf s name v (Viewer.exchanged name ((List.range s.horizon).map v)) := by
  unfold Viewer.exchanged
  split_ifs with h
  · refine .inl ⟨?_, rfl⟩
    intro t ht
    rw [List.all_eq_true] at h
    simpa using h (v t) (List.mem_map_of_mem (List.mem_range.mpr ht))
  · refine .inr ⟨?_, rfl⟩
    by_contra hc
    push Not at hc
    apply h
    rw [List.all_eq_true]
    intro q hq
    obtain ⟨t, ht, rfl⟩ := List.mem_map.mp hq
    simpa using hc t (List.mem_range.mp ht)

theorem Spec.ExchangeOf.sum {s : Study} {name : String} {v : ℕ → ℚ} {out : List (Cell × List ℚ)}
    (h : ExchangeOf s name v out) {t : ℕ} (ht : t < s.horizon) :
    sumL out (fun e => e.2.getD t 0) = v t := by
  rcases h with ⟨h0, rfl⟩ | ⟨_, rfl⟩
  · rw [h0 t ht]; rfl
  · simp only [sumL, List.map_cons, List.map_nil, List.sum_cons, List.sum_nil, add_zero]
    exact over_getD s v ht

theorem Spec.ExchangeOf.lengths {s : Study} {name : String} {v : ℕ → ℚ} {out : List (Cell × List ℚ)}
    (h : ExchangeOf s name v out) : ∀ p ∈ out, p.2.length = s.horizon := by
  rcases h with ⟨h0, rfl⟩ | ⟨_, rfl⟩
  · simp
  · simp [over_length]

end Hadar
