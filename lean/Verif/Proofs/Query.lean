import Verif.Proofs.TablesUnique

/-! # Queries of the analyzer -/

namespace Hadar

open Spec

/-! ### A pivot table depends on the selected rows only -/

theorem Frame.at_row {f : Frame} {c : String} (h : f.Has c) (i : ℕ) :
    Row.at (f.row i) c = f.cell c i := by
  unfold Row.at Frame.row
  unfold Frame.Has at h
  generalize f.names = l at h
  induction l with
  | nil => simp at h
  | cons x l ih =>
    rw [List.map_cons, Dict.get?_cons]
    by_cases hx : x.1 = c
    · subst hx; simp
    · rw [if_neg hx]
      refine ih ?_
      simpa [Ne.symm hx] using h

theorem get?_orderedInsert (x : String × Cell) (l : Row) (c : String) :
    Dict.get? (l.orderedInsert (fun a b => a.1 ≤ b.1) x) c = if x.1 = c then some x.2 else Dict.get? l c := by
  induction l with
  | nil => rw [List.orderedInsert_nil, Dict.get?_cons]
  | cons y l ih =>
    rw [List.orderedInsert_cons]
    split_ifs with h1 h2 h2
    · rw [Dict.get?_cons, if_pos h2]
    · rw [Dict.get?_cons, if_neg h2]
    · rw [Dict.get?_cons, if_neg (fun h => h1 (by rw [h2, h]; exact String.le_refl _)), ih, if_pos h2]
    · rw [Dict.get?_cons, ih, if_neg h2, Dict.get?_cons]

/-- sorting keeps what is read in a column -/
theorem get?_alphabetical (l : Row) (c : String) : Dict.get? (alphabetical l) c = Dict.get? l c := by
  unfold alphabetical
  induction l with
  | nil => rfl
  | cons x l ih => rw [List.insertionSort_cons, get?_orderedInsert, ih, Dict.get?_cons]

/-- sorting the names or the values is the same, and lines up with a choice of columns -/
theorem alphabetical_map (cols : List String) (p : String → Bool) (v : String → Cell) :
    ((cols.insertionSort (· ≤ ·)).filter p).map (fun c => (c, v c)) =
      alphabetical ((cols.map fun c => (c, v c)).filter fun q => p q.1) := by
  unfold alphabetical
  rw [List.filter_map, ← List.map_insertionSort (r := fun a b : String => a ≤ b)]
  · congr 1
    refine List.Perm.eq_of_pairwise (le := fun a b : String => a ≤ b) (fun a b _ _ h1 h2 => String.le_antisymm h1 h2)
      ((List.pairwise_insertionSort _ _).filter _) (List.pairwise_insertionSort _ _) ?_
    exact ((List.perm_insertionSort _ _).filter _).trans (List.perm_insertionSort _ _).symm
  · intro a _ b _
    rfl

/-- lines of the pivot table of a list of rows -/
def pivotRows (cols names : List String) (rows : List Row) : List (List Cell × Dict String Cell) :=
  let lines := ((((rows.map fun row => names.map (Row.at row)).dedup).insertionSort
    (fun a b => Cell.keyLe a b = true)).map fun k =>
      (k, cols.map fun c => (c, Cell.mean ((rows.filter fun row => names.map (Row.at row) = k).map
        fun row => Row.at row c)))).filter fun l => l.2 = [] ∨ ∃ v ∈ l.2, v.2 ≠ .nan
  lines.map fun l => (l.1, l.2.filter fun v => decide (∃ l' ∈ lines, ∃ v' ∈ l'.2, v'.1 = v.1 ∧ v'.2 ≠ .nan))

theorem Frame.pivot_eq {f : Frame} {names : List String} (h : ∀ c ∈ names, f.Has c) (mask : ℕ → Bool) :
    f.pivot names mask = ⟨names, pivotRows (((f.names.filter fun c => c.2 ∧ c.1 ∉ names).map Prod.fst).insertionSort (· ≤ ·))
      names (((List.range f.size).filter fun i => mask i && names.all fun c => decide (f.cell c i ≠ .nan)).map f.row)⟩ := by
  have hk : ∀ i, (names.map fun c => f.cell c i) = names.map (Row.at (f.row i)) := by
    intro i
    exact List.map_congr_left fun c hc => (Frame.at_row (h c hc) i).symm
  unfold Frame.pivot pivotRows
  generalize (fun i => mask i && names.all fun c => decide (f.cell c i ≠ .nan)) = mask
  have hm : ∀ k : List Cell, ((((f.names.filter fun c => c.2 ∧ c.1 ∉ names).map Prod.fst).insertionSort (· ≤ ·)).map fun c =>
      (c, Cell.mean ((((List.range f.size).filter mask).filter fun i => names.map (Row.at (f.row i)) = k).map
        fun i => f.cell c i))) =
      (((f.names.filter fun c => c.2 ∧ c.1 ∉ names).map Prod.fst).insertionSort (· ≤ ·)).map fun c =>
        (c, Cell.mean (((((List.range f.size).filter mask).map f.row).filter fun row =>
          names.map (Row.at row) = k).map fun row => Row.at row c)) := by
    intro k
    refine List.map_congr_left ?_
    intro c hc
    obtain ⟨c', hc', rfl⟩ := List.mem_map.mp ((List.mem_insertionSort _).mp hc)
    have hc'' : f.Has c'.1 := List.mem_map_of_mem (List.mem_of_mem_filter hc')
    simp only [List.filter_map, List.map_map, Function.comp_def, Frame.at_row hc'']
  simp only [hk, hm, List.map_map, Function.comp_def]

theorem mean_single {c : Cell} (h : ∀ x, c ≠ .str x) : Cell.mean [c] = c := by
  cases c with
  | num q => simp [Cell.mean, Cell.infs, Cell.nums]
  | str x => exact absurd rfl (h x)
  | inf neg => simp [Cell.mean, Cell.infs]
  | nan => simp [Cell.mean, Cell.infs, Cell.nums]

theorem pivotRows_perm {cols names : List String} {rows : List Row}
    (hu : (rows.map fun row => names.map (Row.at row)).Nodup)
    (h0 : ∀ row ∈ rows, ∃ c ∈ cols, Row.at row c ≠ .nan)
    (hn : ∀ row ∈ rows, ∀ c ∈ cols, ∀ x, Row.at row c ≠ .str x) :
    (pivotRows cols names rows).Perm (rows.map fun row => (names.map (Row.at row),
      (cols.filter fun c => decide (∃ row' ∈ rows, Row.at row' c ≠ .nan)).map fun c => (c, Row.at row c))) ∧
    (pivotRows cols names rows).Pairwise fun a b => Cell.keyLe a.1 b.1 = true := by
  unfold pivotRows
  simp only
  generalize hL : (((((rows.map fun row => names.map (Row.at row)).dedup).insertionSort
    (fun a b => Cell.keyLe a b = true)).map fun k =>
      (k, cols.map fun c => (c, Cell.mean ((rows.filter fun row => names.map (Row.at row) = k).map
        fun row => Row.at row c)))).filter fun l => decide (l.2 = [] ∨ ∃ v ∈ l.2, v.2 ≠ .nan)) = L
  have hp : L.Perm (rows.map fun row => (names.map (Row.at row), cols.map fun c => (c, Row.at row c))) := by
    rw [← hL, hu.dedup]
    have hp := (List.perm_insertionSort (fun a b => Cell.keyLe a b = true)
      (rows.map fun row => names.map (Row.at row))).map fun k =>
      (k, cols.map fun c => (c, Cell.mean ((rows.filter fun row => names.map (Row.at row) = k).map
        fun row => Row.at row c)))
    refine (hp.filter _).trans ?_
    rw [List.map_map]
    have e : ∀ row ∈ rows, (rows.filter fun row' => names.map (Row.at row') = names.map (Row.at row)) =
        [row] := by
      intro row hrow
      have h1 : (rows.filter fun row' => names.map (Row.at row') = names.map (Row.at row)) =
          rows.filter fun row' => row' = row := by
        refine List.filter_congr ?_
        intro x hx
        simp only [decide_eq_decide]
        exact ⟨fun he => List.inj_on_of_nodup_map hu hx hrow he, fun he => by rw [he]⟩
      rw [h1, List.filter_eq, (List.nodup_iff_count_eq_one.mp hu.of_map) row hrow]
      rfl
    have e2 : rows.map ((fun k => (k, cols.map fun c => (c, Cell.mean ((rows.filter fun row =>
        names.map (Row.at row) = k).map fun row => Row.at row c)))) ∘ fun row => names.map (Row.at row)) =
        rows.map fun row => (names.map (Row.at row), cols.map fun c => (c, Row.at row c)) := by
      refine List.map_congr_left ?_
      intro row hrow
      simp only [Function.comp_apply, e row hrow]
      congr 1
      refine List.map_congr_left ?_
      intro c hc
      rw [List.map_singleton, mean_single (hn row hrow c hc)]
    rw [e2, List.filter_eq_self.mpr]
    intro l hl
    obtain ⟨row, hrow, rfl⟩ := List.mem_map.mp hl
    obtain ⟨c, hc, hq⟩ := h0 row hrow
    simp only [decide_eq_true_eq]
    exact .inr ⟨_, List.mem_map_of_mem hc, hq⟩
  have hseen : ∀ c ∈ cols, (∃ l' ∈ L, ∃ v' ∈ l'.2, v'.1 = c ∧ v'.2 ≠ .nan) ↔ ∃ row' ∈ rows, Row.at row' c ≠ .nan := by
    intro c hc
    constructor
    · rintro ⟨l, hl, v, hv, rfl, hne⟩
      obtain ⟨row, hrow, rfl⟩ := List.mem_map.mp (hp.mem_iff.mp hl)
      obtain ⟨c', _, rfl⟩ := List.mem_map.mp hv
      exact ⟨row, hrow, hne⟩
    · rintro ⟨row, hrow, hne⟩
      exact ⟨_, hp.mem_iff.mpr (List.mem_map_of_mem hrow), _, List.mem_map_of_mem hc, rfl, hne⟩
  constructor
  · refine (hp.map _).trans (List.Perm.of_eq ?_)
    rw [List.map_map]
    refine List.map_congr_left ?_
    intro row _
    simp only [Function.comp_apply, List.filter_map, Function.comp_def]
    congr 2
    refine List.filter_congr ?_
    intro c hc
    rw [decide_eq_decide]
    exact hseen c hc
  · rw [List.pairwise_map, ← hL]
    refine List.Pairwise.filter _ ?_
    rw [List.pairwise_map]
    exact List.pairwise_insertionSort _ _

/-! ### Indexes -/

theorem mem_pyRange {a b c : ℤ} (hc : c ≠ 0) : ∃ l, pyRange a b c = .ok l ∧
    ∀ i, i ∈ l ↔ InRange a b c i := by
  unfold pyRange
  rw [if_neg hc]
  refine ⟨_, rfl, ?_⟩
  intro i
  simp only [List.mem_map, List.mem_range, InRange]
  by_cases h : 0 < c
  · simp only [h, if_true, true_and, not_lt.mpr h.le, false_and, or_false]
    constructor
    · rintro ⟨m, hm, rfl⟩
      have h1 : (m : ℤ) < (b - a + c - 1) / c := by omega
      have h2 : ((m : ℤ) + 1) * c ≤ b - a + c - 1 := by
        have := Int.mul_le_of_le_ediv h (show (m : ℤ) + 1 ≤ (b - a + c - 1) / c by omega)
        exact this
      have h3 : 0 ≤ c * (m : ℤ) := by positivity
      refine ⟨⟨by omega, ?_⟩, ⟨m, by ring⟩⟩
      nlinarith
    · rintro ⟨⟨h1, h2⟩, m, hm⟩
      have hm0 : 0 ≤ m := by
        by_contra h0
        push Not at h0
        have : c * m < 0 := mul_neg_of_pos_of_neg h h0
        omega
      refine ⟨m.toNat, ?_, by rw [Int.toNat_of_nonneg hm0]; omega⟩
      have h3 : m + 1 ≤ (b - a + c - 1) / c := by
        refine Int.le_ediv_of_mul_le h ?_
        nlinarith
      omega
  · have h' : c < 0 := by omega
    simp only [h, if_false, false_and, false_or, h', true_and]
    constructor
    · rintro ⟨m, hm, rfl⟩
      have h2 : ((m : ℤ) + 1) * (-c) ≤ a - b - c - 1 :=
        Int.mul_le_of_le_ediv (by omega) (show (m : ℤ) + 1 ≤ (a - b - c - 1) / (-c) by omega)
      have h3 : 0 ≤ (-c) * (m : ℤ) := mul_nonneg (by omega) (by omega)
      refine ⟨⟨by nlinarith, by nlinarith⟩, ⟨m, by ring⟩⟩
    · rintro ⟨⟨h1, h2⟩, m, hm⟩
      have hm0 : 0 ≤ m := by
        by_contra h0
        push Not at h0
        have : 0 < c * m := mul_pos_of_neg_of_neg h' h0
        omega
      refine ⟨m.toNat, ?_, by rw [Int.toNat_of_nonneg hm0]; omega⟩
      have h3 : m + 1 ≤ (a - b - c - 1) / (-c) := by
        refine Int.le_ediv_of_mul_le (by omega) ?_
        nlinarith
      omega

/-- what an index made from a filter with known bounds keeps -/
theorem Index.make_keeps {kind : IndexKind} {arg : IndexArg} {x : Index} {size : ℕ}
    (h : Index.make kind arg = .ok x) (hb : ∀ a b c, arg = .slice a b c → a.isSome ∧ b.isSome)
    {c : Cell} (hc : c ≠ .nan) (hn : ∀ a b d, arg = .slice a b d → ∃ i : ℕ, c = .num i ∧ i < size) :
    x.kind = kind ∧ (x.keeps c = true ↔ Selects size arg c) := by
  cases arg with
  | none =>
    cases h
    exact ⟨rfl, by simp [Index.keeps, Selects, hc]⟩
  | list l =>
    cases h
    refine ⟨rfl, ?_⟩
    cases l with
    | nil => simp [Index.keeps, Selects, hc]
    | cons a l => simp [Index.keeps, Selects]
  | tuple l =>
    cases h
    exact ⟨rfl, by simp [Index.keeps, Selects]⟩
  | one y =>
    cases h
    exact ⟨rfl, by simp [Index.keeps, Selects]⟩
  | slice a b d =>
    obtain ⟨h1, h2⟩ := hb a b d rfl
    obtain ⟨a, rfl⟩ := Option.isSome_iff_exists.mp h1
    obtain ⟨b, rfl⟩ := Option.isSome_iff_exists.mp h2
    obtain ⟨i, rfl, hi⟩ := hn _ _ d rfl
    simp only [Index.make, Index.ofSlice, Option.getD_some, bind, Except.bind] at h
    split_ifs at h
    by_cases hd : d.getD 1 = 0
    · simp [pyRange, hd] at h
    · obtain ⟨l, hl, hm⟩ := mem_pyRange (a := a) (b := b) hd
      rw [hl] at h
      cases h
      refine ⟨rfl, ?_⟩
      simp only [Index.keeps, Bool.false_eq_true, if_false, decide_eq_true_eq, List.mem_map, Selects,
        InSlice, Option.getD_some]
      constructor
      · rintro ⟨j, hj, e⟩
        have : (j : ℤ) = i := by
          have := Cell.num.inj e
          exact_mod_cast this
        subst this
        exact ⟨i, rfl, by omega, by omega, (hm _).mp hj⟩
      · rintro ⟨j, e, _, _, hj⟩
        exact ⟨j, (hm _).mpr hj, e.symm⟩

theorem Index.make_alone {kind : IndexKind} {arg : IndexArg} {x : Index}
    (h : Index.make kind arg = .ok x) (hb : ∀ a b c, arg = .slice a b c → a.isSome ∧ b.isSome)
    {k : Cell} {l : List Cell} (ha : x.isAlone = true) (hv : x.values = k :: l) :
    Single arg ∧ l = [] := by
  have hl : l = [] := by
    unfold Index.isAlone at ha
    simp only [Bool.and_eq_true, decide_eq_true_eq, hv, List.length_cons] at ha
    exact List.length_eq_zero_iff.mp (by omega)
  subst hl
  refine ⟨?_, rfl⟩
  cases arg with
  | none => cases h; simp [Index.isAlone] at ha
  | list l => cases h; simp only at hv; subst hv; exact .list k
  | tuple l => cases h; simp only at hv; subst hv; exact .tuple k
  | one y => exact .one y
  | slice a b d =>
    obtain ⟨h1, h2⟩ := hb a b d rfl
    obtain ⟨a, rfl⟩ := Option.isSome_iff_exists.mp h1
    obtain ⟨b, rfl⟩ := Option.isSome_iff_exists.mp h2
    simp only [Index.make, Index.ofSlice, Option.getD_some, bind, Except.bind] at h
    split_ifs at h
    by_cases hd : d.getD 1 = 0
    · simp [pyRange, hd] at h
    · obtain ⟨l, hl, hm⟩ := mem_pyRange (a := a) (b := b) hd
      rw [hl] at h
      cases h
      simp only [List.map_eq_singleton_iff] at hv
      obtain ⟨i, rfl, _⟩ := hv
      exact .slice a b d i fun j => by rw [← hm]; simp

theorem Index.single_alone {kind : IndexKind} {arg : IndexArg} {x : Index}
    (h : Index.make kind arg = .ok x) (hs : Single arg) : x.isAlone = true := by
  cases hs with
  | one c => cases h; rfl
  | list c => cases h; rfl
  | tuple c => cases h; rfl
  | slice a b st i hi =>
    simp only [Index.make, Index.ofSlice, Option.getD_some, bind, Except.bind] at h
    split_ifs at h
    by_cases hd : st.getD 1 = 0
    · simp [pyRange, hd] at h
    · obtain ⟨l, hl, hm⟩ := mem_pyRange (a := a) (b := b) hd
      rw [hl] at h
      cases h
      unfold pyRange at hl
      rw [if_neg hd] at hl
      simp only [Except.ok.injEq] at hl
      subst hl
      simp only [Index.isAlone, Bool.not_false, Bool.true_and, List.length_map, List.length_range,
        decide_eq_true_eq]
      by_contra hlt
      have h0 := (hi _).mp ((hm (a + st.getD 1 * ((0 : ℕ) : ℤ))).mp
        (List.mem_map.mpr ⟨0, List.mem_range.mpr (by omega), rfl⟩))
      have h1 := (hi _).mp ((hm (a + st.getD 1 * ((1 : ℕ) : ℤ))).mp
        (List.mem_map.mpr ⟨1, List.mem_range.mpr (by omega), rfl⟩))
      push_cast at h0 h1
      exact hd (by linarith)

/-! ### Levels that are removed -/

theorem removeUseless_ok {xs : List Index} {pt pt' : Pivot} (h : pt.removeUseless xs = .ok pt')
    (hl : pt.levels = xs.map fun x => x.kind.column)
    (hk : ∀ l ∈ pt.lines, List.Forall₂ (fun c x => Index.keeps x c = true) l.1 xs) :
    ∃ dropped kept, xs = dropped ++ kept ∧ (∀ x ∈ dropped, x.isAlone = true ∧ ∃ k, x.values = [k]) ∧
      pt'.levels = (kept.map fun x => x.kind.column) ∧
      pt'.lines = (pt.lines.map fun l => (l.1.drop dropped.length, l.2)) ∧
      ((pt.lines.Pairwise fun a b => Cell.keyLe a.1 b.1 = true) →
        pt'.lines.Pairwise fun a b => Cell.keyLe a.1 b.1 = true) ∧
      (pt'.lines ≠ [] → ∀ x, kept.head? = some x → x.isAlone = false) := by
  induction xs generalizing pt with
  | nil => cases h
  | cons x xs ih =>
    have stop : pt' = pt → (pt.lines ≠ [] → x.isAlone = false) → ∃ dropped kept, x :: xs = dropped ++ kept ∧
        (∀ x ∈ dropped, x.isAlone = true ∧ ∃ k, x.values = [k]) ∧
        pt'.levels = (kept.map fun x => x.kind.column) ∧
        pt'.lines = (pt.lines.map fun l => (l.1.drop dropped.length, l.2)) ∧
        ((pt.lines.Pairwise fun a b => Cell.keyLe a.1 b.1 = true) →
          pt'.lines.Pairwise fun a b => Cell.keyLe a.1 b.1 = true) ∧
        (pt'.lines ≠ [] → ∀ x, kept.head? = some x → x.isAlone = false) := by
      rintro rfl h0
      refine ⟨[], x :: xs, rfl, by simp, hl, by simp, id, ?_⟩
      intro hne y hy
      cases hy
      exact h0 hne
    rw [Pivot.removeUseless] at h
    split_ifs at h with ha
    · split at h
      · cases h
      · rename_i k vs hv
        have hvs : vs = [] := by
          unfold Index.isAlone at ha
          simp only [Bool.and_eq_true, decide_eq_true_eq, hv, List.length_cons] at ha
          exact List.length_eq_zero_iff.mp (by omega)
        subst hvs
        have hall : ∀ l ∈ pt.lines, ∃ l', l.1 = k :: l' ∧
            List.Forall₂ (fun c x => Index.keeps x c = true) l' xs := by
          intro l hl
          obtain ⟨c, l', h1, h2, h3⟩ := List.forall₂_cons_right_iff.mp (hk l hl)
          refine ⟨l', ?_, h2⟩
          have hal : x.all = false := by
            unfold Index.isAlone at ha
            simp only [Bool.and_eq_true, Bool.not_eq_true'] at ha
            exact ha.1
          simp only [Index.keeps, hal, hv, Bool.false_eq_true, if_false, List.mem_singleton,
            decide_eq_true_eq] at h1
          rw [h3, h1]
        split_ifs at h with hany
        · have hfil : pt.lines.filter (fun l => decide (l.1.head? = some k)) = pt.lines := by
            rw [List.filter_eq_self]
            intro l hl
            obtain ⟨l', e, _⟩ := hall l hl
            simp [e]
          rw [hfil] at h
          obtain ⟨dr, kp, e1, e2, e3, e4, e5, e6⟩ := ih h (by simp [hl]) (by
            intro l hl
            obtain ⟨l0, hl0, rfl⟩ := List.mem_map.mp hl
            obtain ⟨l', e, hf⟩ := hall l0 hl0
            rw [e]
            exact hf)
          refine ⟨x :: dr, kp, by rw [e1]; rfl, ?_, e3, ?_, ?_, e6⟩
          · intro y hy
            rcases List.mem_cons.mp hy with rfl | hy
            · exact ⟨ha, k, hv⟩
            · exact e2 y hy
          · rw [e4, List.map_map]
            refine List.map_congr_left ?_
            intro l _
            simp
          · intro hs
            refine e5 ?_
            rw [List.pairwise_map]
            refine hs.imp_of_mem ?_
            intro a b ha' hb' hab
            obtain ⟨la, ea, _⟩ := hall a ha'
            obtain ⟨lb, eb, _⟩ := hall b hb'
            rw [ea, eb] at hab ⊢
            simpa [Cell.keyLe] using hab
        · cases h
          refine stop rfl fun h0 => ?_
          obtain ⟨l, hl⟩ := List.exists_mem_of_ne_nil _ h0
          obtain ⟨l', e, _⟩ := hall l hl
          exact absurd (List.any_eq_true.mpr ⟨l, hl, by simp [e]⟩) hany
    · cases h
      exact stop rfl fun _ => by simpa using ha

/-- a level with several values, or all, stops the removal -/
theorem removeUseless_total {xs : List Index} (pt : Pivot) (h : ∃ x ∈ xs, x.isAlone = false)
    (hv : ∀ x ∈ xs, x.isAlone = true → x.values ≠ []) : ∃ pt', pt.removeUseless xs = .ok pt' := by
  induction xs generalizing pt with
  | nil => obtain ⟨x, hx, _⟩ := h; cases hx
  | cons x xs ih =>
    rw [Pivot.removeUseless]
    split_ifs with ha
    · have := hv x List.mem_cons_self ha
      split
      · rename_i e; exact absurd e this
      · split_ifs
        · refine ih _ ?_ fun y hy => hv y (List.mem_cons_of_mem _ hy)
          obtain ⟨y, hy, hy'⟩ := h
          rcases List.mem_cons.mp hy with rfl | hy
          · rw [ha] at hy'; cases hy'
          · exact ⟨y, hy, hy'⟩
        · exact ⟨pt, rfl⟩
    · exact ⟨pt, rfl⟩

/-! ### Chains of calls -/

/-- dimension of an index: all kinds of elements are one dimension -/
def IndexKind.dim : IndexKind → ℕ
  | .network => 0
  | .node => 1
  | .time => 2
  | .scn => 3
  | _ => 4

theorem Selector.offers_iff (q : Selector) (k : IndexKind) : q.offers k = true ↔
    k ≠ .network ∧ k.dim ∉ q.initial.map fun x => x.kind.dim := by
  unfold Selector.offers
  cases k <;> simp [checkIndex, IndexKind.dim]
  all_goals
    constructor
    all_goals
      intro h x hx
      have := h x hx
      cases hk : x.kind <;> simp_all [IndexKind.isElement]

theorem Index.make_kind {k : IndexKind} {arg : IndexArg} {x : Index} (h : Index.make k arg = .ok x) :
    x.kind = k := by
  cases arg with
  | slice a b d =>
    simp only [Index.make] at h
    split_ifs at h
    simp only [bind, Except.bind] at h
    split at h
    · cases h
    · cases h; rfl
  | _ => cases h; rfl

theorem chain_table {a : Analyzer} {calls : List (IndexKind × IndexArg)} {ix : List Index}
    {t : Option Pivot} (h : Selector.chain a ⟨ix, ix⟩ calls = .ok (.table t)) (hl : ix.length < 5)
    (hn : (ix.map fun x => x.kind.dim).Nodup) :
    ∃ xs, List.Forall₂ (fun c x => Index.make c.1 c.2 = .ok x) calls xs ∧
      (ix ++ xs).length = 5 ∧ ((ix ++ xs).map fun x => x.kind.dim).Nodup ∧
      a.filter (ix ++ xs) = .ok t := by
  induction calls generalizing ix with
  | nil => cases h
  | cons c calls ih =>
    obtain ⟨k, arg⟩ := c
    rw [Selector.chain] at h
    unfold Selector.call at h
    by_cases ho : Selector.offers ⟨ix, ix⟩ k = true
    · rw [if_pos ho] at h
      rw [Selector.offers_iff] at ho
      cases hm : Index.make k arg with
      | error e => rw [hm] at h; cases h
      | ok x =>
        rw [hm] at h
        have hk := Index.make_kind hm
        have hn' : ((ix ++ [x]).map fun x => x.kind.dim).Nodup := by
          rw [List.map_append, List.nodup_append]
          refine ⟨hn, by simp, ?_⟩
          intro d hd d' hd'
          simp only [List.map_cons, List.map_nil, List.mem_singleton] at hd'
          rintro rfl
          rw [hd', hk] at hd
          exact ho.2 hd
        simp only at h
        by_cases h5 : (ix ++ [x]).length = fullDescription
        · rw [if_pos h5] at h
          cases hf : a.filter (ix ++ [x]) with
          | error e => rw [hf] at h; cases h
          | ok t' =>
            rw [hf] at h
            simp only [Except.map] at h
            split_ifs at h with hr
            · cases h
              subst hr
              exact ⟨[x], .cons hm .nil, h5, hn', hf⟩
        · rw [if_neg h5] at h
          simp only at h
          have hl' : (ix ++ [x]).length < 5 := by
            unfold fullDescription at h5
            rw [List.length_append, List.length_singleton] at h5 ⊢
            omega
          obtain ⟨xs, e1, e2, e3, e4⟩ := ih h hl' hn'
          refine ⟨x :: xs, .cons hm e1, ?_⟩
          rw [List.append_assoc] at e2 e3 e4
          exact ⟨e2, e3, e4⟩
    · rw [if_neg ho] at h; cases h

/-- the chain of a complete query -/
theorem chain_complete {a : Analyzer} {calls : List (IndexKind × IndexArg)} {ix xs : List Index}
    (hF : List.Forall₂ (fun c x => Index.make c.1 c.2 = .ok x) calls xs)
    (h5 : (ix ++ xs).length = 5) (hn : ((ix ++ xs).map fun x => x.kind.dim).Nodup)
    (h0 : ∀ x ∈ xs, x.kind ≠ .network) (hx : xs ≠ []) :
    Selector.chain a ⟨ix, ix⟩ calls = (a.filter (ix ++ xs)).map .table := by
  induction hF generalizing ix with
  | nil => exact absurd rfl hx
  | @cons c x calls xs hm hF ih =>
    obtain ⟨k, arg⟩ := c
    have hk : x.kind = k := Index.make_kind hm
    rw [Selector.chain]
    unfold Selector.call
    have ho : Selector.offers ⟨ix, ix⟩ k = true := by
      rw [Selector.offers_iff, ← hk]
      refine ⟨h0 x List.mem_cons_self, ?_⟩
      rw [List.map_append, List.nodup_append] at hn
      intro hd
      exact hn.2.2 _ hd _ (List.mem_map_of_mem List.mem_cons_self) rfl
    rw [if_pos ho]
    simp only at hm
    rw [hm]
    simp only
    by_cases h6 : (ix ++ [x]).length = fullDescription
    · rw [if_pos h6]
      have hxs : xs = [] := by
        unfold fullDescription at h6
        simp only [List.length_append, List.length_cons, List.length_nil] at h5 h6
        exact List.length_eq_zero_iff.mp (by omega)
      subst hxs
      cases hF
      cases a.filter (ix ++ [x]) with
      | error e => rfl
      | ok t => simp [Except.map]
    · rw [if_neg h6]
      have hxs : xs ≠ [] := by
        rintro rfl
        exact h6 h5
      simp only
      have := ih (ix := ix ++ [x]) (by simpa using h5) (by simpa using hn)
        (fun y hy => h0 y (List.mem_cons_of_mem _ hy)) hxs
      rw [this, List.append_assoc]
      rfl

theorem dims_all {xs : List Index} (h5 : xs.length = 5) (hn : (xs.map fun x => x.kind.dim).Nodup) :
    ∀ d < 5, ∃ x ∈ xs, x.kind.dim = d := by
  have hsub : (xs.map fun x => x.kind.dim) ⊆ List.range 5 := by
    intro d hd
    obtain ⟨x, _, rfl⟩ := List.mem_map.mp hd
    cases x.kind <;> simp [IndexKind.dim]
  have hp : (xs.map fun x => x.kind.dim).Perm (List.range 5) :=
    (List.subperm_of_subset hn hsub).perm_of_length_le (by simp [h5])
  intro d hd
  obtain ⟨x, hx, e⟩ := List.mem_map.mp (hp.mem_iff.mpr (List.mem_range.mpr hd))
  exact ⟨x, hx, e⟩

/-- the table of each kind of element -/
def Analyzer.tableOf (a : Analyzer) : IndexKind → Frame
  | .cons => a.consumption
  | .prod => a.production
  | .stor => a.storage
  | .link => a.link
  | .srcConv => a.srcConverter
  | _ => a.destConverter

theorem dim_inj {k k' : IndexKind} (h : k.dim = k'.dim) (hk : k.isElement = false) : k = k' := by
  cases k <;> cases k' <;> simp_all [IndexKind.dim, IndexKind.isElement]

theorem dim_element {k : IndexKind} : k.dim = 4 ↔ k.isElement = true := by
  cases k <;> simp [IndexKind.dim, IndexKind.isElement]

theorem check_of_mem {xs : List Index} {x : Index} (hx : x ∈ xs) : checkIndex xs x.kind = true := by
  unfold checkIndex
  rw [List.any_eq_true]
  exact ⟨x, hx, by simp⟩

/-- a complete list of indexes is a query on the table of its only kind of element -/
theorem filter_complete {a : Analyzer} {xs : List Index} (h5 : xs.length = 5)
    (hn : (xs.map fun x => x.kind.dim).Nodup) :
    ∃ x ∈ xs, x.kind.isElement = true ∧ a.filter xs = ((a.tableOf x.kind).query xs).map some := by
  have hd := dims_all h5 hn
  have hass : ∀ k : IndexKind, k.isElement = false → assertIndex xs k = .ok () := by
    intro k hk
    obtain ⟨x, hx, e⟩ := hd k.dim (by cases k <;> simp [IndexKind.dim])
    have : k = x.kind := dim_inj e.symm hk
    unfold assertIndex
    rw [this, if_pos (check_of_mem hx)]
  obtain ⟨x, hx, e⟩ := hd 4 (by omega)
  have hxe := dim_element.mp e
  refine ⟨x, hx, hxe, ?_⟩
  have honly : ∀ k : IndexKind, k.isElement = true → (checkIndex xs k = true ↔ x.kind = k) := by
    intro k hk
    constructor
    · intro h
      unfold checkIndex at h
      rw [List.any_eq_true] at h
      obtain ⟨y, hy, hyk⟩ := h
      simp only [decide_eq_true_eq] at hyk
      subst hyk
      have := List.inj_on_of_nodup_map hn hx hy (by simp only [e]; exact (dim_element.mpr hk).symm)
      rw [this]
    · rintro rfl
      exact check_of_mem hx
  unfold Analyzer.filter
  simp only [hass .time rfl, hass .node rfl, hass .network rfl, hass .scn rfl, bind, Except.bind,
    honly .cons rfl, honly .prod rfl, honly .stor rfl, honly .link rfl, honly .srcConv rfl,
    honly .destConv rfl]
  cases hk : x.kind <;> simp [Analyzer.tableOf] <;> simp [hk, IndexKind.isElement] at hxe

end Hadar
