import Verif.Proofs.Answer
import Verif.Proofs.Selectors
import Verif.Props.Tables

/-!
# C37 - C41: queries of the analyzer
-/

namespace Hadar.Props

open Hadar Spec

/-! ### C37 -/

/-- C37 (partial): when a query `analyzer.network(g).f(..)...` returns, it returns a table with one line per
row that matches all filters, with the values of this row and no other line; the order of the calls is
free. Missing: slices without bounds (`C39_refuted`), storages when there are several and intakes of
converters with several sources (their tables are wrong, C34 and C36). -/
theorem C37_partial {junk : Junk} {s : Study} {r : Result} {a : Analyzer} (hb : Built s)
    (hm : Mirrors s r) (ha : Analyzer.init junk s r = .ok a) {g : IndexArg}
    {calls : List (IndexKind × IndexArg)} {t : Option Pivot} (h : a.ask g calls = .ok (.table t))
    (hbd : BoundsGiven calls)
    (hr : ∀ c ∈ calls, c.1.isElement = true → Reliable s c.1) :
    ∃ c pt, c ∈ calls ∧ c.1.isElement = true ∧ t = some pt ∧
      Answer s (tableRows s r c.1) ((.network, g) :: calls) pt := by
  cases hx : Index.make .network g with
  | error e =>
    unfold Analyzer.ask Analyzer.network at h
    rw [hx] at h; cases h
  | ok x =>
    rw [ask_network hx] at h
    obtain ⟨xs, hF, h5, hn, hf⟩ := chain_table h (by simp) (by simp)
    have hF' : List.Forall₂ (fun c x => Index.make c.1 c.2 = .ok x) ((.network, g) :: calls) (x :: xs) :=
      .cons hx hF
    rw [List.singleton_append] at h5 hn hf
    obtain ⟨y, hy, hye, hq⟩ := filter_complete (a := a) h5 hn
    rw [hf] at hq
    have hyx : y ∈ xs := by
      rcases List.mem_cons.mp hy with rfl | h0
      · rw [Index.make_kind hx] at hye; cases hye
      · exact h0
    obtain ⟨c, hc, hmk⟩ := forall₂_mem_right hF hyx
    have hck := Index.make_kind hmk
    cases hpt : (a.tableOf y.kind).query (x :: xs) with
    | error e => rw [hpt] at hq; cases hq
    | ok pt =>
      rw [hpt] at hq
      cases hq
      refine ⟨c, pt, hc, by rw [← hck]; exact hye, rfl, ?_⟩
      rw [← hck]
      refine query_answer hF' h5 hn hy hye
        (table_ok hb hm ha hye (by rw [hck]; exact hr c hc (by rw [← hck]; exact hye))) ?_ hpt
      intro k a b d hmem
      rcases List.mem_cons.mp hmem with e | hmem
      · cases e
        rcases make_slice_kind hx with h0 | h0 <;> cases h0
      · exact hbd k a b d hmem

/-! ### C38 -/

/-- C38: a list of filters without time, node, network or scenario is refused -/
theorem C38 (a : Analyzer) (filters : List Index) (k : IndexKind)
    (hk : k = .time ∨ k = .node ∨ k = .network ∨ k = .scn) (h : ∀ x ∈ filters, x.kind ≠ k) :
    a.filter filters = .error .valueError := by
  have hc : checkIndex filters k = false := by
    unfold checkIndex
    rw [List.any_eq_false]
    intro x hx
    simpa using h x hx
  unfold Analyzer.filter assertIndex
  rcases hk with rfl | rfl | rfl | rfl <;> rw [hc] <;> simp only [bind, Except.bind] <;>
    cases checkIndex filters .time <;> cases checkIndex filters .node <;>
    cases checkIndex filters .network <;> simp

/-- C38: a chain of calls that returns data gives node, time, scenario and one kind of element, once
each -/
theorem C38_chain {a : Analyzer} {g : IndexArg} {calls : List (IndexKind × IndexArg)}
    {t : Option Pivot} (h : a.ask g calls = .ok (.table t)) :
    ∃ kind : IndexKind, kind.isElement = true ∧
      (calls.map Prod.fst).Perm [.node, .time, .scn, kind] := by
  cases hx : Index.make .network g with
  | error e =>
    unfold Analyzer.ask Analyzer.network at h
    rw [hx] at h; cases h
  | ok x =>
    rw [ask_network hx] at h
    obtain ⟨xs, hF, h5, hn, hf⟩ := chain_table h (by simp) (by simp)
    rw [List.singleton_append] at h5 hn hf
    have hd := dims_all h5 hn
    have hkinds : (calls.map Prod.fst) = xs.map fun x => x.kind := by
      clear hf h5 hn hd h
      induction hF with
      | nil => rfl
      | cons h _ ih => rw [List.map_cons, List.map_cons, ih, Index.make_kind h]
    have get : ∀ d, 0 < d → d < 5 → ∃ y ∈ xs, y.kind.dim = d := by
      intro d h0 h1
      obtain ⟨y, hy, e⟩ := hd d h1
      rcases List.mem_cons.mp hy with rfl | hy
      · rw [Index.make_kind hx] at e
        simp only [IndexKind.dim] at e; omega
      · exact ⟨y, hy, e⟩
    obtain ⟨z, hz, hz4⟩ := get 4 (by omega) (by omega)
    refine ⟨z.kind, dim_element.mp hz4, ?_⟩
    rw [hkinds]
    have hne := dim_element.mp hz4
    have hnd : ([IndexKind.node, .time, .scn, z.kind]).Nodup := by
      cases hk : z.kind <;> simp_all [IndexKind.isElement]
    refine (List.Subperm.perm_of_length_le (List.subperm_of_subset hnd ?_) (by
      simp only [List.length_map, List.length_cons, List.length_nil] at h5 ⊢; omega)).symm
    intro k hk
    simp only [List.mem_cons, List.not_mem_nil, or_false] at hk
    rcases hk with rfl | rfl | rfl | rfl
    · obtain ⟨y, hy, e⟩ := get 1 (by omega) (by omega)
      exact List.mem_map.mpr ⟨y, hy, (dim_inj (k := .node) e.symm rfl).symm⟩
    · obtain ⟨y, hy, e⟩ := get 2 (by omega) (by omega)
      exact List.mem_map.mpr ⟨y, hy, (dim_inj (k := .time) e.symm rfl).symm⟩
    · obtain ⟨y, hy, e⟩ := get 3 (by omega) (by omega)
      exact List.mem_map.mpr ⟨y, hy, (dim_inj (k := .scn) e.symm rfl).symm⟩
    · exact List.mem_map.mpr ⟨z, hz, rfl⟩

/-! ### C39 -/

/-- C39 (partial): a slice with both bounds selects Python's range. Missing: slices with an omitted bound,
see `C39_start_refuted` and `C39_stop_refuted`. -/
theorem C39_partial {k : IndexKind} (hk : k = .time ∨ k = .scn) (a b : ℤ) (c : Option ℤ)
    (hc : c ≠ some 0) (size : ℕ) : ∃ x, Index.make k (.slice (some a) (some b) c) = .ok x ∧
      ∀ i < size, (x.keeps (.num i) = true ↔ InSlice size (some a) (some b) c i) := by
  have hd : c.getD 1 ≠ 0 := by
    cases c with
    | none => simp
    | some c => intro h; exact hc (by rw [show c = 0 from h])
  obtain ⟨l, hl, _⟩ := mem_pyRange (a := a) (b := b) hd
  have hx : Index.make k (.slice (some a) (some b) c) =
      .ok ⟨k, false, l.map fun i : ℤ => .num (i : ℚ)⟩ := by
    simp only [Index.make, hk, if_true, Index.ofSlice, Option.getD_some, hl, bind, Except.bind]
    rfl
  refine ⟨_, hx, ?_⟩
  intro i hi
  rw [(Index.make_keeps hx (fun a b d e => by cases e; simp) (c := .num i) (size := size) (by simp)
    (fun a b d e => ⟨i, rfl, hi⟩)).2]
  constructor
  · rintro ⟨j, e, hj⟩
    have : (i : ℤ) = j := by
      have := Cell.num.inj e
      exact_mod_cast this
    rw [this]; exact hj
  · intro h
    exact ⟨i, rfl, h⟩

/-- C39 refuted: a slice without start (and a positive step) selects nothing at all -/
theorem C39_start_refuted {k : IndexKind} (hk : k = .time ∨ k = .scn) (b c : Option ℤ)
    (hc : 0 < c.getD 1) : ∃ x, Index.make k (.slice none b c) = .ok x ∧
      (∀ v, x.keeps v = false) ∧
      ∀ size : ℕ, 0 < size → 0 < b.getD size → InSlice size none b c 0 := by
  have hl : pyRange 0 (-1) (c.getD 1) = .ok [] := by
    unfold pyRange
    rw [if_neg (by omega), if_pos hc]
    have : (-1 - 0 + c.getD 1 - 1) / c.getD 1 ≤ 0 := by
      have : (-1 - 0 + c.getD 1 - 1) / c.getD 1 < 1 := Int.ediv_lt_of_lt_mul hc (by omega)
      omega
    simp only [Int.toNat_of_nonpos this]; rfl
  refine ⟨⟨k, false, []⟩, ?_, fun v => by simp [Index.keeps], ?_⟩
  · simp only [Index.make, hk, if_true, Index.ofSlice, Option.getD_none, hl, bind, Except.bind]
    rfl
  · intro size hs hb
    refine ⟨le_refl _, by omega, ?_⟩
    simp only [hc, if_true, Option.getD_none, InRange, true_and, sub_zero, dvd_zero, and_true,
      le_refl]
    exact .inl hb

/-- C39 refuted: a slice with a start and without stop raises -/
theorem C39_stop_refuted {k : IndexKind} (hk : k = .time ∨ k = .scn) (a : ℤ) (c : Option ℤ) :
    Index.make k (.slice (some a) none c) = .error .typeError := by
  simp only [Index.make, hk, if_true, Index.ofSlice, bind, Except.bind]

example : ∃ x, Index.make .time (.slice (some 1) (some 7) (some 2)) = .ok x ∧
    x.values = [.num 1, .num 3, .num 5] := ⟨_, rfl, by decide +kernel⟩

/-! ### C40 -/

theorem gives_make {k : IndexKind} {arg : IndexArg} (h : Gives k arg) :
    ∃ x, Index.make k arg = .ok x ∧ (x.isAlone = true → x.values ≠ []) ∧
      (Several arg → x.isAlone = false) := by
  cases h with
  | none => exact ⟨_, rfl, by simp [Index.isAlone], by simp [Index.isAlone]⟩
  | list l =>
    refine ⟨_, rfl, ?_, ?_⟩
    · cases l <;> simp [Index.isAlone]
    · intro h; cases h <;> simp [Index.isAlone]
  | tuple l hl =>
    refine ⟨_, rfl, fun _ => hl, ?_⟩
    intro h; cases h; simp [Index.isAlone]
  | one c => exact ⟨_, rfl, by simp, fun h => by cases h⟩
  | slice a b st hi hk =>
    have hd : st.getD 1 ≠ 0 := by
      obtain ⟨i, hi⟩ := hi
      intro h0
      rw [h0] at hi
      simp [InRange] at hi
    obtain ⟨l, hl, hm⟩ := mem_pyRange (a := a) (b := b) hd
    have hx : Index.make k (.slice (some a) (some b) st) =
        .ok ⟨k, false, l.map fun i : ℤ => .num (i : ℚ)⟩ := by
      simp only [Index.make, hk, if_true, Index.ofSlice, Option.getD_some, hl, bind, Except.bind]
      rfl
    refine ⟨_, hx, ?_, ?_⟩
    · intro _
      obtain ⟨i, hi⟩ := hi
      have := (hm i).mpr hi
      intro h0
      simp only [List.map_eq_nil_iff] at h0
      rw [h0] at this; cases this
    · intro h
      cases h with
      | slice _ _ _ i j hij hi hj =>
        have h1 := (hm i).mpr hi
        have h2 := (hm j).mpr hj
        have : 1 < l.length := by
          by_contra h0
          have h3 : l.length ≤ 1 := by omega
          match l, h3, h1, h2 with
          | [x], _, h1, h2 =>
            simp only [List.mem_singleton] at h1 h2
            exact hij (h1.trans h2.symm)
        simp [Index.isAlone]; omega

/-- the indexes of a complete list of filters -/
theorem complete_indexes {a : Analyzer} {g : IndexArg} {calls : List (IndexKind × IndexArg)}
    {kind : IndexKind} (hk : kind.isElement = true)
    (hc : (calls.map Prod.fst).Perm [.node, .time, .scn, kind])
    (hg : Gives .network g) (hgs : ∀ c ∈ calls, Gives c.1 c.2) :
    ∃ xs, List.Forall₂ (fun c x => Index.make c.1 c.2 = .ok x) ((.network, g) :: calls) xs ∧
      xs.length = 5 ∧ (xs.map fun x => x.kind.dim).Nodup ∧
      (∃ x ∈ xs, x.kind = kind) ∧
      (∀ x ∈ xs, x.kind.isElement = true → x.kind = kind) ∧
      a.ask g calls = (a.filter xs).map .table := by
  obtain ⟨x, hx, _⟩ := gives_make hg
  have : ∃ xs, List.Forall₂ (fun c x => Index.make c.1 c.2 = .ok x) calls xs := by
    clear hc
    induction calls with
    | nil => exact ⟨[], .nil⟩
    | cons c calls ih =>
      obtain ⟨y, hy, _⟩ := gives_make (hgs c List.mem_cons_self)
      obtain ⟨ys, hys⟩ := ih fun d hd => hgs d (List.mem_cons_of_mem _ hd)
      exact ⟨y :: ys, .cons hy hys⟩
  obtain ⟨xs, hF⟩ := this
  have hkinds : (calls.map Prod.fst) = xs.map fun x => x.kind := by
    clear hc hgs
    induction hF with
    | nil => rfl
    | cons h _ ih => rw [List.map_cons, List.map_cons, ih, Index.make_kind h]
  rw [hkinds] at hc
  have hxk := Index.make_kind hx
  have hkd := dim_element.mpr hk
  have hlen : xs.length = 4 := by
    have := hc.length_eq
    simpa using this
  have hmem : ∀ y ∈ xs, y.kind ∈ [IndexKind.node, .time, .scn, kind] := by
    intro y hy
    exact hc.mem_iff.mp (List.mem_map_of_mem (f := fun x : Index => x.kind) hy)
  have hnd : ((x :: xs).map fun x => x.kind.dim).Nodup := by
    have hp : ((x :: xs).map fun x => x.kind.dim).Perm [0, 1, 2, 3, 4] := by
      rw [List.map_cons, hxk]
      refine List.Perm.cons _ ?_
      have := hc.map IndexKind.dim
      rw [List.map_map] at this
      simp only [List.map_cons, List.map_nil, hkd] at this
      exact this
    rw [hp.nodup_iff]; decide
  refine ⟨x :: xs, .cons hx hF, by simp [hlen], hnd, ?_, ?_, ?_⟩
  · have : kind ∈ xs.map fun x => x.kind := hc.mem_iff.mpr (by simp)
    obtain ⟨y, hy, e⟩ := List.mem_map.mp this
    exact ⟨y, List.mem_cons_of_mem _ hy, e⟩
  · intro y hy he
    rcases List.mem_cons.mp hy with rfl | hy
    · rw [hxk] at he; cases he
    · have := hmem y hy
      simp only [List.mem_cons, List.not_mem_nil, or_false] at this
      rcases this with e | e | e | e
      · rw [e] at he; cases he
      · rw [e] at he; cases he
      · rw [e] at he; cases he
      · exact e
  · rw [ask_network hx]
    refine chain_complete hF (by simp [hlen]) (by simpa using hnd) ?_ (by rintro rfl; simp at hlen)
    intro y hy e
    have := hmem y hy
    rw [e] at this
    simp only [List.mem_cons, List.not_mem_nil, or_false, reduceCtorEq, false_or] at this
    rw [← this] at hk; cases hk

/-- C40 (partial): a complete query returns a table, provided that one filter at least does not give a
single value and that all filters give something. Missing: a query that gives one value for everything
raises (`C40_refuted`), as does a query on converters when the study has none
(`C40_converter_refuted`). -/
theorem C40_partial {junk : Junk} {s : Study} {r : Result} {a : Analyzer} (hb : Built s)
    (hm : Mirrors s r) (ha : Analyzer.init junk s r = .ok a) {g : IndexArg}
    {calls : List (IndexKind × IndexArg)} {kind : IndexKind} (hk : kind.isElement = true)
    (hc : (calls.map Prod.fst).Perm [.node, .time, .scn, kind])
    (hg : Gives .network g) (hgs : ∀ c ∈ calls, Gives c.1 c.2)
    (hsev : ∃ c ∈ (IndexKind.network, g) :: calls, Several c.2) (hr : Reliable s kind)
    (hcv : kind = .srcConv ∨ kind = .destConv → s.converters ≠ []) :
    ∃ pt, a.ask g calls = .ok (.table (some pt)) := by
  obtain ⟨xs, hF, h5, hn, ⟨x, hx, hxk⟩, honly, hask⟩ := complete_indexes (a := a) hk hc hg hgs
  obtain ⟨y, hy, hye, hq⟩ := filter_complete (a := a) h5 hn
  have hyk := honly y hy hye
  rw [hask, hq, hyk]
  have hcol := columns_iff h5 hn hy hye
  rw [hyk] at hcol
  unfold Frame.query
  rw [if_pos]
  · have hgs' : ∀ c ∈ (IndexKind.network, g) :: calls, Gives c.1 c.2 := by
      intro c hc
      rcases List.mem_cons.mp hc with rfl | hc
      · exact hg
      · exact hgs c hc
    obtain ⟨pt, hpt⟩ := removeUseless_total ((a.tableOf kind).pivot (xs.map fun x => x.kind.column)
      (fun i => xs.all fun x => x.keeps ((a.tableOf kind).cell x.kind.column i))) (xs := xs) (by
        obtain ⟨c, hc, hs⟩ := hsev
        obtain ⟨z, hz, hmz⟩ := Forall₂.exists_left hF hc
        obtain ⟨z', hz', _, h3⟩ := gives_make (hgs' c hc)
        cases hmz.symm.trans hz'
        exact ⟨z, hz, h3 hs⟩) (by
        intro z hz
        obtain ⟨c, hc, hmz⟩ := forall₂_mem_right hF hz
        obtain ⟨z', hz', h2, _⟩ := gives_make (hgs' c hc)
        cases hmz.symm.trans hz'
        exact h2)
    rw [hpt]
    exact ⟨pt, rfl⟩
  · intro z hz
    refine table_has hb hm ha hk hr hcv _ ?_
    exact (hcol _).mp (List.mem_map_of_mem (f := fun x : Index => x.kind.column) hz)

theorem removeUseless_alone {xs : List Index} {pt : Pivot} (h0 : pt.lines ≠ [])
    (hx : ∀ x ∈ xs, x.isAlone = true)
    (hk : ∀ l ∈ pt.lines, List.Forall₂ (fun c x => Index.keeps x c = true) l.1 xs) :
    pt.removeUseless xs = .error .indexError := by
  induction xs generalizing pt with
  | nil => rfl
  | cons x xs ih =>
    rw [Pivot.removeUseless, if_pos (hx x List.mem_cons_self)]
    split
    · rfl
    · rename_i k vs hv
      have ha := hx x List.mem_cons_self
      unfold Index.isAlone at ha
      simp only [Bool.and_eq_true, decide_eq_true_eq, hv, List.length_cons, Bool.not_eq_true'] at ha
      have hvs : vs = [] := List.length_eq_zero_iff.mp (by omega)
      subst hvs
      have hall : ∀ l ∈ pt.lines, ∃ l', l.1 = k :: l' ∧
          List.Forall₂ (fun c x => Index.keeps x c = true) l' xs := by
        intro l hl
        obtain ⟨c, l', h1, h2, h3⟩ := List.forall₂_cons_right_iff.mp (hk l hl)
        refine ⟨l', ?_, h2⟩
        simp only [Index.keeps, ha.1, hv, Bool.false_eq_true, if_false, List.mem_singleton,
          decide_eq_true_eq] at h1
        rw [h3, h1]
      obtain ⟨l0, hl0⟩ := List.exists_mem_of_ne_nil _ h0
      rw [if_pos]
      · refine ih ?_ (fun y hy => hx y (List.mem_cons_of_mem _ hy)) ?_
        · obtain ⟨l', e, _⟩ := hall l0 hl0
          simp only [ne_eq, List.map_eq_nil_iff]
          refine List.ne_nil_of_mem (a := l0) (List.mem_filter.mpr ⟨hl0, ?_⟩)
          simp [e]
        · intro l hl
          obtain ⟨l1, hl1, rfl⟩ := List.mem_map.mp hl
          obtain ⟨l', e, hf⟩ := hall l1 (List.mem_of_mem_filter hl1)
          rw [e]
          exact hf
      · rw [List.any_eq_true]
        obtain ⟨l', e, _⟩ := hall l0 hl0
        exact ⟨l0, hl0, by simp [e]⟩

/-- C40 refuted: a complete query that gives one value for the network, the node, the element, the time and
the scenario raises `IndexError` whenever there is such a row -/
theorem C40_refuted {junk : Junk} {s : Study} {r : Result} {a : Analyzer} (hb : Built s)
    (hm : Mirrors s r) (ha : Analyzer.init junk s r = .ok a) {g : Cell}
    {calls : List (IndexKind × IndexArg)} {kind : IndexKind} (hk : kind.isElement = true)
    (hc : (calls.map Prod.fst).Perm [.node, .time, .scn, kind])
    (hone : ∀ c ∈ calls, ∃ v, c.2 = .one v) (hr : Reliable s kind)
    (hrow : ∃ row ∈ tableRows s r kind, Matches s ((.network, .one g) :: calls) row) :
    a.ask (.one g) calls = .error .indexError := by
  have hbg : BoundsGiven ((IndexKind.network, IndexArg.one g) :: calls) := by
    intro k x y z hmem
    rcases List.mem_cons.mp hmem with e | hmem
    · cases e
    · obtain ⟨v, e⟩ := hone _ hmem
      cases e
  obtain ⟨xs, hF, h5, hn, ⟨x, hx, hxk⟩, honly, hask⟩ := complete_indexes (a := a) hk hc (.one g)
    (fun c hc => by obtain ⟨v, e⟩ := hone c hc; rw [e]; exact .one v)
  obtain ⟨y, hy, hye, hq⟩ := filter_complete (a := a) h5 hn
  have hyk := honly y hy hye
  have hto := table_ok hb hm ha hk hr
  have hcv : kind = .srcConv ∨ kind = .destConv → s.converters ≠ [] := by
    intro h h0
    obtain ⟨row, hrow, _⟩ := hrow
    rcases h with rfl | rfl <;> simp [tableRows, sources, h0] at hrow
  have hhas := table_has hb hm ha hk hr hcv
  have hcol := columns_iff h5 hn hy hye
  rw [hask, hq]
  subst hyk
  have hkc : ∀ z ∈ xs, z.kind.column ∈ keyColumns y.kind :=
    fun z hz => (hcol _).mp (List.mem_map_of_mem (f := fun x : Index => x.kind.column) hz)
  have hhas' : ∀ c ∈ xs.map (fun x => x.kind.column), (a.tableOf y.kind).Has c :=
    fun c hc => hhas c ((hcol c).mp hc)
  have hxs : ∀ z ∈ xs, z.isAlone = true := by
    intro z hz
    obtain ⟨c, hc, hmz⟩ := forall₂_mem_right hF hz
    rcases List.mem_cons.mp hc with rfl | hc
    · cases hmz; rfl
    · obtain ⟨v, e⟩ := hone c hc
      rw [e] at hmz
      cases hmz
      rfl
  have hmask := query_mask h5 hn hto (fun z hz => hhas _ (hkc z hz)) hkc
  unfold Frame.query
  rw [if_pos (fun z hz => hhas _ (hkc z hz)), Frame.pivot_eq hhas', hmask]
  have hu : (((tableRows s r y.kind).filter fun row =>
      xs.all fun x => x.keeps (Row.at row x.kind.column)).map fun row =>
      (xs.map fun x => x.kind.column).map (Row.at row)).Nodup := by
    refine (List.nodup_map_iff_inj_on (List.Nodup.filter _ hto.unique.of_map)).mpr ?_
    intro a ha b hb' hab
    refine List.inj_on_of_nodup_map hto.unique (List.mem_of_mem_filter ha) (List.mem_of_mem_filter hb') ?_
    unfold identity
    refine List.map_congr_left ?_
    intro c hc
    exact List.map_inj_left.mp hab c ((hcol c).mpr hc)
  obtain ⟨hperm, _⟩ := pivotRows_perm (cols := (((a.tableOf y.kind).names.filter fun c =>
      c.2 ∧ c.1 ∉ xs.map fun x => x.kind.column).map Prod.fst).insertionSort (· ≤ ·)) hu (by
    intro row hrow
    obtain ⟨c, hc, hck, hne⟩ := hto.some
    refine ⟨c.1, (List.mem_insertionSort _).mpr (List.mem_map_of_mem (List.mem_filter.mpr ⟨hc, ?_⟩)),
      hne row (List.mem_of_mem_filter hrow)⟩
    simp only [decide_eq_true_eq]
    exact ⟨(hto.nums c hc hck).1, fun h => hck ((hcol _).mp h)⟩) (by
    intro row hrow c hc
    obtain ⟨c', hc', rfl⟩ := List.mem_map.mp ((List.mem_insertionSort _).mp hc)
    have h1 := List.of_mem_filter hc'
    simp only [decide_eq_true_eq] at h1
    exact (hto.nums c' (List.mem_of_mem_filter hc') fun h => h1.2 ((hcol _).mpr h)).2 row
      (List.mem_of_mem_filter hrow))
  rw [removeUseless_alone]
  · rfl
  · obtain ⟨row, hrow, hmatch⟩ := hrow
    intro h0
    simp only at h0
    rw [h0] at hperm
    have := hperm.symm.eq_nil
    simp only [List.map_eq_nil_iff] at this
    have hmem : row ∈ (tableRows s r y.kind).filter fun row =>
        xs.all fun x => x.keeps (Row.at row x.kind.column) :=
      List.mem_filter.mpr ⟨hrow, (keeps_iff (tableRows_grid hrow) hF hkc hbg).mpr hmatch⟩
    rw [this] at hmem
    cases hmem
  · exact hxs
  · intro l hl
    have := hperm.mem_iff.mp hl
    obtain ⟨row, hrow, rfl⟩ := List.mem_map.mp this
    simp only [List.map_map, List.forall₂_map_left_iff, List.forall₂_same]
    have hall := List.of_mem_filter hrow
    exact fun z hz => List.all_eq_true.mp hall z hz

/-- C40 refuted: when the study has no converter, every complete query on converters raises
`KeyError` -/
theorem C40_converter_refuted {junk : Junk} {s : Study} {r : Result} {a : Analyzer} (hb : Built s)
    (hm : Mirrors s r) (ha : Analyzer.init junk s r = .ok a) {g : IndexArg}
    {calls : List (IndexKind × IndexArg)} {kind : IndexKind} (hk : kind = .srcConv ∨ kind = .destConv)
    (hc : (calls.map Prod.fst).Perm [.node, .time, .scn, kind])
    (hg : Gives .network g) (hgs : ∀ c ∈ calls, Gives c.1 c.2) (h0 : s.converters = []) :
    a.ask g calls = .error .keyError := by
  have hke : kind.isElement = true := by rcases hk with rfl | rfl <;> rfl
  obtain ⟨xs, hF, h5, hn, ⟨x, hx, hxk⟩, honly, hask⟩ := complete_indexes (a := a) hke hc hg hgs
  obtain ⟨y, hy, hye, hq⟩ := filter_complete (a := a) h5 hn
  have hyk := honly y hy hye
  rw [hask, hq, hyk]
  have hno : ¬ (a.tableOf kind).Has "t" := by
    obtain ⟨_, _, _, _, _, _, h5', h6'⟩ := init_ok ha
    obtain ⟨hcc, hs⟩ := destConverter_ok h6'
    rcases hk with rfl | rfl
    · obtain ⟨f, e1, _, _, e3, _⟩ := srcConverter_lists hb hm junk hcc
        (by intro p hp; rw [h0] at hp; cases hp)
      cases h5'.symm.trans e1
      unfold Frame.Has
      simp only [Analyzer.tableOf, e3 h0]; decide
    · obtain ⟨f, e1, _, _, e3, _⟩ := destConverter_lists hb hm junk hcc hs
      cases h6'.symm.trans e1
      unfold Frame.Has
      simp only [Analyzer.tableOf, e3 h0]; decide
  unfold Frame.query
  rw [if_neg]
  · rfl
  · intro hall
    obtain ⟨z, hz, e⟩ := dims_all h5 hn 2 (by omega)
    have := hall z hz
    rw [← dim_inj (k := .time) e.symm rfl] at this
    exact hno this

/-! ### C41 -/

/-- C41 (partial): as long as no selector is called twice, each call gives what the whole chain of calls
gives from scratch, whatever is done with the other selectors in the meantime. Missing: a selector that is
called twice, see `C41_refuted`. -/
theorem C41_partial (a : Analyzer) (ops : List SelOp) (hl : Linear ops) (i : ℕ)
    (hi : i < (paths a ops).2.sels.length) (hu : Untouched i ops) (k : IndexKind) (arg : IndexArg) :
    ∃ p, (paths a ops).1[i]? = some p ∧
      SameReply ((paths a ops).2.step a (.call i k arg)).1 (a.ask p.1 (p.2 ++ [(k, arg)])) :=
  (selInv a ops hl).reply hi hu k arg

/-- `q = analyzer.network("elec").node("a").consumption().time()` (last operation first) -/
def reuseOps : List SelOp :=
  [.call 2 .time .none, .call 1 .cons .none, .call 0 .node (.one (.str "a")),
   .network (.one (.str "elec"))]

/-- C41 refuted: with this partial query `q`, `q.scn(0)` then `q.scn(1)` gives no data the second time: it
returns yet another partial query, for any analyzer. From scratch the same query ends. -/
theorem C41_refuted (a : Analyzer) :
    Linear reuseOps ∧ Untouched 3 reuseOps ∧
    (let st := (paths a reuseOps).2
     let st' := (st.step a (.call 3 .scn (.one (.num 0)))).2
     (st'.step a (.call 3 .scn (.one (.num 1)))).1 = .ok (.ref 4)) ∧
    ∀ q, a.ask (.one (.str "elec")) [(.node, .one (.str "a")), (.cons, .none), (.time, .none),
      (.scn, .one (.num 1))] ≠ .ok (.selector q) := by
  refine ⟨?_, ?_, rfl, ?_⟩
  · simp [reuseOps, Linear, Untouched]
  · simp [reuseOps, Untouched]
  · intro q
    rw [ask_network (x := ⟨.network, false, [.str "elec"]⟩) rfl,
      chain_complete (xs := [⟨.node, false, [.str "a"]⟩, ⟨.cons, true, []⟩, ⟨.time, true, []⟩,
        ⟨.scn, false, [.num 1]⟩]) (by simp [Index.make]) rfl (by decide) (by decide) (by simp)]
    cases a.filter _ with
    | error e => simp [Except.map]
    | ok t => simp [Except.map]

/-- C41 refuted, in general: once a call on a selector has given a table, no later call on it ever gives one, whatever the user does in
between. -/
theorem C41_again_refuted (a : Analyzer) (before between : List SelOp) (i : ℕ) (k k' : IndexKind) (arg arg' : IndexArg) (t t' : Option Pivot)
    (h : ((afterOps a Selectors.start before).step a (.call i k arg)).1 = .ok (.table t)) :
    ((afterOps a ((afterOps a Selectors.start before).step a (.call i k arg)).2 between).step a (.call i k' arg')).1 ≠ .ok (.table t') := by
  have key : ∀ (ops : List SelOp) (st : Selectors), OwnLists st → OwnLists (afterOps a st ops) ∧
      ∀ j < st.sels.length, st.count j ≤ (afterOps a st ops).count j ∧ j < (afterOps a st ops).sels.length := by
    intro ops
    induction ops with
    | nil => exact fun st h => ⟨h, fun j hj => ⟨le_refl _, hj⟩⟩
    | cons op ops ih =>
      intro st h
      obtain ⟨h1, h2⟩ := ih (st.step a op).2 (h.step a op)
      refine ⟨h1, fun j hj => ?_⟩
      have h3 := count_step h a op j hj
      have h4 := h2 j h3.2
      exact ⟨le_trans h3.1 h4.1, h4.2⟩
  have h1 := (key before _ ownLists_start).1
  obtain ⟨h2, _, h3⟩ := table_count h1 h
  have h4 := h1.step a (.call i k arg)
  have h5 := key between _ h4
  have h6 := (h5.2 i (count_step h1 a (.call i k arg) i h2).2).1
  intro h7
  have h8 := (table_count h5.1 h7).2.1
  omega

/-- C41: what a selector called twice gives the second time: the first call remains, as if the second one had been made on what the first
one gave. (Kinds that one query can have both.) -/
theorem C41_second (a : Analyzer) (ops : List SelOp) (hl : Linear ops) (i : ℕ) (hu : Untouched i ops)
    {k k' : IndexKind} {arg arg' : IndexArg} {j : ℕ} (hkk : k ≠ k') (hel : ¬ (k.isElement = true ∧ k'.isElement = true))
    (h : ((paths a ops).2.step a (.call i k arg)).1 = .ok (.ref j)) :
    ∃ p, (paths a ops).1[i]? = some p ∧
      SameReply ((((paths a ops).2.step a (.call i k arg)).2).step a (.call i k' arg')).1
        (a.ask p.1 (p.2 ++ [(k, arg), (k', arg')])) := by
  have hinv := selInv a ops hl
  generalize paths a ops = P at hinv h
  obtain ⟨ps, st⟩ := P
  dsimp only at hinv h ⊢
  cases hlf : st.sels[i]? with
  | none => simp only [Selectors.step, hlf] at h; cases h
  | some q =>
    obtain ⟨l, f⟩ := q
    obtain ⟨e1, p, e2, e3⟩ := (hinv.fresh i hu).same l f hlf
    have hll := hinv.refs i l f hlf
    refine ⟨p, e2, ?_⟩
    rw [ask_selector e3]
    simp only [Selectors.step, hlf, List.getD_eq_getElem?_getD, e1, Option.getD_some] at h ⊢
    split_ifs at h ⊢ with ho
    · cases hm : Index.make k arg with
      | error e => rw [hm] at h; cases h
      | ok x =>
        rw [hm] at h
        simp only at h ⊢
        have hxk : x.kind = k := Index.make_kind hm
        split_ifs at h ⊢ with h5
        · cases hfl : a.filter (f ++ [x]) with
          | error e => rw [hfl] at h; cases h
          | ok t => rw [hfl] at h; cases h
        · have hs : (st.sels ++ [((st.lists.set l (f ++ [x])).length, f ++ [x])])[i]? = some (l, f) := by
            rw [List.getElem?_append_left (lt_of_sel hlf)]; exact hlf
          have hlist : (st.lists.set l (f ++ [x]) ++ [f ++ [x]])[l]? = some (f ++ [x]) := by
            rw [List.getElem?_append_left (by simpa using hll)]
            simp [hll]
          have hof : Selector.offers ⟨f ++ [x], f ++ [x]⟩ k' = Selector.offers ⟨f, f⟩ k' := by
            have hck : checkIndex (f ++ [x]) k' = checkIndex f k' := by
              simp [checkIndex, hxk, hkk]
            have hany : k'.isElement = true → ((f ++ [x]).any fun y => y.kind.isElement) = f.any fun y => y.kind.isElement := by
              intro hk'
              have : x.kind.isElement = false := by
                rw [hxk]
                cases hkel : k.isElement with
                | false => rfl
                | true => exact absurd ⟨hkel, hk'⟩ hel
              simp [this]
            unfold Selector.offers
            cases k' <;> simp only [hck] <;> rw [hany rfl]
          have hchain : Selector.chain a ⟨f, f⟩ [(k, arg), (k', arg')] = (Selector.call a k' arg' ⟨f ++ [x], f ++ [x]⟩).1 := by
            rw [Selector.chain]
            have : (Selector.call a k arg ⟨f, f⟩).1 = .ok (.selector ⟨f ++ [x], f ++ [x]⟩) := by
              unfold Selector.call
              simp only [ho, if_true, hm, if_neg h5]
            rw [this]
            exact chain_single a _ _ _
          rw [hchain]
          unfold Selector.call
          simp only [Selectors.create, hs, hlist, Option.getD_some, hof]
          split_ifs
          · cases Index.make k' arg' with
            | error e => exact .error e
            | ok y =>
              simp only
              split_ifs
              · cases a.filter (f ++ [x] ++ [y]) with
                | error e => exact .error e
                | ok t => exact .table t
              · exact .selector _ _
          · exact .error _
    

/-- `q = analyzer.network("elec").node("a")`, then `q.time(0)`, then `q.scn(1)`: the second one keeps the time ... -/
example (a : Analyzer) : ∃ p, (paths a [.call 0 .node (.one (.str "a")), .network (.one (.str "elec"))]).1[1]? = some p ∧
    SameReply (((paths a [.call 0 .node (.one (.str "a")), .network (.one (.str "elec"))]).2.step a (.call 1 .time (.one (.num 0)))).2.step a
      (.call 1 .scn (.one (.num 1)))).1 (a.ask p.1 (p.2 ++ [(.time, .one (.num 0)), (.scn, .one (.num 1))])) :=
  C41_second a _ (by simp [Linear, Untouched]) 1 (by simp [Untouched]) (j := 2) (by decide) (by decide) rfl

/-- ... and a selector with four indexes gives a table, once -/
example (a : Analyzer) (t : Option Pivot) (h : a.filter [⟨.network, false, [.str "elec"]⟩, ⟨.node, false, [.str "a"]⟩, ⟨.cons, true, []⟩,
    ⟨.time, true, []⟩, ⟨.scn, false, [.num 0]⟩] = .ok t) :
    ((afterOps a Selectors.start reuseOps.reverse).step a (.call 3 .scn (.one (.num 0)))).1 = .ok (.table t) := by
  have e : (afterOps a Selectors.start reuseOps.reverse).sels[3]? = some (3, [⟨.network, false, [.str "elec"]⟩, ⟨.node, false, [.str "a"]⟩,
      ⟨.cons, true, []⟩, ⟨.time, true, []⟩]) := rfl
  have e' : (afterOps a Selectors.start reuseOps.reverse).lists.getD 3 [] = [⟨.network, false, [.str "elec"]⟩, ⟨.node, false, [.str "a"]⟩,
      ⟨.cons, true, []⟩, ⟨.time, true, []⟩] := rfl
  simp only [Selectors.step, e, e']
  rw [if_pos (by decide)]
  simp only [Index.make, List.cons_append, List.nil_append]
  rw [if_pos (by decide), h]
  rfl

example (a : Analyzer) : 3 < (paths a reuseOps).2.sels.length := by
  show 3 < 4
  decide

/-! ### Concrete cases -/

theorem anAnalyzer_exists : ∃ a, Analyzer.init (fun _ _ _ => .nan) anStudy anResult = .ok a := by
  have h : (match Analyzer.init (fun _ _ _ => .nan) anStudy anResult with
      | .ok _ => true
      | .error _ => false) = true := by decide +kernel
  cases ha : Analyzer.init (fun _ _ _ => .nan) anStudy anResult with
  | error e => rw [ha] at h; cases h
  | ok a => exact ⟨a, rfl⟩

/-- an analyzer of the example study -/
noncomputable def anAnalyzer : Analyzer := anAnalyzer_exists.choose

theorem anAnalyzer_init : Analyzer.init (fun _ _ _ => .nan) anStudy anResult = .ok anAnalyzer :=
  anAnalyzer_exists.choose_spec

/-- `analyzer.network("elec").node().production("nuke").time().scn(slice(0, 2))` -/
def anCallList : List (IndexKind × IndexArg) :=
  [(.node, .none), (.prod, .one (.str "nuke")), (.time, .list []), (.scn, .slice (some 0) (some 2) none)]

theorem anStudy_reliable (k : IndexKind) : Reliable anStudy k :=
  ⟨fun _ => by decide +kernel, fun _ => anStudy_one⟩

theorem anCalls_answer : ∃ pt, anAnalyzer.ask (.one (.str "elec")) anCallList = .ok (.table (some pt)) :=
  C40_partial anStudy_built anResult_mirrors anAnalyzer_init (kind := .prod) rfl (by decide)
    (.one _) (by
      intro c hc
      simp only [anCallList, List.mem_cons, List.not_mem_nil, or_false] at hc
      rcases hc with rfl | rfl | rfl | rfl
      · exact .none
      · exact .one _
      · exact .list _
      · exact .slice _ _ _ ⟨0, by simp [InRange]⟩ (.inr rfl))
    ⟨(.node, .none), by simp [anCallList], .none⟩ (anStudy_reliable _) (by simp)

theorem anCalls_bounds : BoundsGiven anCallList := by
  intro k a b c h
  simp only [anCallList, List.mem_cons, List.not_mem_nil, or_false, Prod.mk.injEq,
    IndexArg.slice.injEq, reduceCtorEq, and_false, false_or] at h
  obtain ⟨_, rfl, rfl, _⟩ := h
  simp

example : anAnalyzer.ask (.one (.str "elec")) [(.node, .one (.str "a")), (.prod, .one (.str "nuke")),
    (.time, .one (.num 1)), (.scn, .one (.num 0))] = .error .indexError := by
  refine C40_refuted anStudy_built anResult_mirrors anAnalyzer_init (kind := .prod) rfl (by decide)
    (by simp) (anStudy_reliable _) ⟨[("cost", .num 20), ("avail", .num 16), ("used", .num 4),
      ("name", .str "nuke"), ("node", .str "a"), ("network", .str "elec"), ("t", .num 1),
      ("scn", .num 0)], by decide +kernel, ?_⟩
  simp [Matches, Selects, Row.at, Dict.get?, IndexKind.column]

/-- `analyzer.network("g").node("x").from_converter("conv").scn(0).time([2, 7])`: the table has no column `max`,
whose only value is zero divided by zero -/
example : (match Analyzer.init (fun _ _ _ => .nan) nilRatio (resultAll nilRatio (fun _ _ => 0) ⟨[], [], 0, 0⟩) with
    | .ok a => match a.ask (.one (.str "g")) [(.node, .one (.str "x")), (.srcConv, .one (.str "conv")),
        (.scn, .one (.num 0)), (.time, .list [.num 2, .num 7])] with
      | .ok (.table (some pt)) => pt.lines.map fun l => (l.1, l.2.map Prod.fst)
      | _ => []
    | _ => []) = [([.num 2], ["flow", "ratio"])] := by decide +kernel

/-! ### The theorems applied to concrete cases -/

example : ∃ pt, Answer anStudy (tableRows anStudy anResult .prod) ((.network, .one (.str "elec")) :: anCallList) pt := by
  obtain ⟨pt, h⟩ := anCalls_answer
  obtain ⟨c, pt', hc, he, ht, ha⟩ := C37_partial anStudy_built anResult_mirrors anAnalyzer_init h anCalls_bounds
    fun c _ _ => anStudy_reliable _
  obtain rfl := Option.some.inj ht
  have : c.1 = .prod := by
    simp only [anCallList, List.mem_cons, List.not_mem_nil, or_false] at hc
    rcases hc with rfl | rfl | rfl | rfl
    · exact absurd he (by decide)
    · rfl
    · exact absurd he (by decide)
    · exact absurd he (by decide)
  rw [this] at ha
  exact ⟨_, ha⟩

/-- a query without a choice of scenarios -/
example (a : Analyzer) : a.filter [⟨.network, false, [.str "elec"]⟩, ⟨.node, true, []⟩, ⟨.prod, true, []⟩, ⟨.time, true, []⟩] =
    .error .valueError :=
  C38 a _ .scn (by simp) (by simp)

example : ∃ kind : IndexKind, kind.isElement = true ∧ (anCallList.map Prod.fst).Perm [.node, .time, .scn, kind] := by
  obtain ⟨pt, h⟩ := anCalls_answer
  exact C38_chain h

example : ∃ x, Index.make .time (.slice (some 1) (some (-1)) (some 2)) = .ok x ∧
    ∀ i : ℕ, i < 5 → (x.keeps (.num i) = true ↔ InSlice 5 (some 1) (some (-1)) (some 2) i) :=
  C39_partial (.inl rfl) 1 (-1) (some 2) (by simp) 5

/-- two chains from the analyzer: the first one goes on -/
example (a : Analyzer) := C41_partial a [.call 0 .node (.one (.str "a")), .network (.one (.str "elec"))]
  (by simp [Linear, Untouched]) 1 (show 1 < 2 by decide) (by simp [Untouched]) .time (.one (.num 0))

end Hadar.Props
