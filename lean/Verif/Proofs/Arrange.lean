import Verif.Proofs.Query
import Verif.Spec.Arrange

/-! # The order of the calls of a query -/

namespace Hadar

open Spec

/-- what a key says about a column -/
def keyAt (names : List String) (k : List Cell) (c : String) : Cell := (Dict.get? (names.zip k) c).getD .nan

theorem keyAt_map {names : List String} (g : String → Cell) {c : String} (hc : c ∈ names) : keyAt names (names.map g) c = g c := by
  unfold keyAt
  induction names with
  | nil => cases hc
  | cons x names ih =>
    rw [List.map_cons, List.zip_cons_cons, Dict.get?_cons]
    by_cases hx : x = c
    · subst hx; simp
    · rw [if_neg hx]
      exact ih ((List.mem_cons.mp hc).resolve_left (Ne.symm hx))

theorem map_keyAt (names : List String) (g : String → Cell) : names.map (keyAt names (names.map g)) = names.map g :=
  List.map_congr_left fun _ hc => keyAt_map g hc

theorem map_eq_of_subset {names names' : List String} {g h : String → Cell} (hs : ∀ c ∈ names', c ∈ names)
    (e : names.map g = names.map h) : names'.map g = names'.map h := by
  refine List.map_congr_left fun c hc => ?_
  exact List.map_inj_left.mp e c (hs c hc)

/-- the lines of a pivot table, read with any order of the columns of the key -/
theorem pivot_lines (f : Frame) {names names' : List String} (hp : names.Perm names') {mask mask' : ℕ → Bool} (hm : mask = mask') :
    ∃ lines : List Line,
      (f.pivot names mask).lines.Perm (lines.map fun l => (names.map l.1, l.2)) ∧
      (f.pivot names' mask').lines.Perm (lines.map fun l => (names'.map l.1, l.2)) ∧
      (lines.map fun l => names.map l.1).Nodup ∧ (lines.map fun l => names'.map l.1).Nodup ∧
      (∀ l ∈ lines, ∃ i, mask i = true ∧ ∀ c ∈ names, l.1 c = f.cell c i) := by
  subst hm
  have hmem : ∀ c, c ∈ names ↔ c ∈ names' := fun c => hp.mem_iff
  have hidx : ((List.range f.size).filter fun i => mask i && names.all fun c => decide (f.cell c i ≠ .nan)) =
      (List.range f.size).filter fun i => mask i && names'.all fun c => decide (f.cell c i ≠ .nan) := by
    congr 1
    funext i
    rw [hp.all_eq]
  have hcols : ((f.names.filter fun c => c.2 ∧ c.1 ∉ names).map Prod.fst).insertionSort (· ≤ ·) =
      ((f.names.filter fun c => c.2 ∧ c.1 ∉ names').map Prod.fst).insertionSort (· ≤ ·) := by
    simp only [hmem]
  unfold Frame.pivot
  simp only
  rw [← hidx, ← hcols]
  generalize hI : ((List.range f.size).filter fun i => mask i && names.all fun c => decide (f.cell c i ≠ .nan)) = idx
  generalize ((f.names.filter fun c => c.2 ∧ c.1 ∉ names).map Prod.fst).insertionSort (· ≤ ·) = cols
  have hmask : ∀ i ∈ idx, mask i = true := by
    intro i hi
    rw [← hI] at hi
    have := (List.mem_filter.mp hi).2
    rw [Bool.and_eq_true] at this
    exact this.1
  generalize hK : (idx.map fun i => names.map fun c => f.cell c i).dedup = K
  have hKn : K.Nodup := hK ▸ List.nodup_dedup _
  have hKm : ∀ k, k ∈ K ↔ ∃ i ∈ idx, (names.map fun c => f.cell c i) = k := by
    intro k
    rw [← hK, List.mem_dedup, List.mem_map]
  have hkey : ∀ k ∈ K, names.map (keyAt names k) = k := by
    intro k hk
    obtain ⟨i, _, rfl⟩ := (hKm k).mp hk
    exact map_keyAt names _
  have hinj : ∀ k ∈ K, ∀ k2 ∈ K, names'.map (keyAt names k) = names'.map (keyAt names k2) → k = k2 := by
    intro k hk k2 hk2 e
    have := map_eq_of_subset (fun c hc => (hmem c).mp hc) e
    rwa [hkey k hk, hkey k2 hk2] at this
  have hK' : ((idx.map fun i => names'.map fun c => f.cell c i).dedup).Perm (K.map fun k => names'.map (keyAt names k)) := by
    refine (List.perm_ext_iff_of_nodup (List.nodup_dedup _) ?_).mpr ?_
    · refine List.Nodup.map_on ?_ hKn
      exact hinj
    · intro k
      rw [List.mem_dedup, List.mem_map, List.mem_map]
      constructor
      · rintro ⟨i, hi, rfl⟩
        refine ⟨names.map fun c => f.cell c i, (hKm _).mpr ⟨i, hi, rfl⟩, ?_⟩
        exact List.map_congr_left fun c hc => keyAt_map _ ((hmem c).mpr hc)
      · rintro ⟨k, hk, rfl⟩
        obtain ⟨i, hi, rfl⟩ := (hKm k).mp hk
        refine ⟨i, hi, ?_⟩
        exact List.map_congr_left fun c hc => (keyAt_map (fun c => f.cell c i) ((hmem c).mpr hc)).symm
  generalize hv : (fun k : List Cell => cols.map fun c =>
    (c, Cell.mean ((idx.filter fun i => (names.map fun c => f.cell c i) = k).map fun i => f.cell c i))) = v
  have hv' : ∀ k ∈ K, (cols.map fun c => (c, Cell.mean ((idx.filter fun i =>
      (names'.map fun c => f.cell c i) = names'.map (keyAt names k)).map fun i => f.cell c i))) = v k := by
    intro k hk
    subst hv
    refine List.map_congr_left fun c _ => ?_
    have : (idx.filter fun i => (names'.map fun c => f.cell c i) = names'.map (keyAt names k)) =
        idx.filter fun i => (names.map fun c => f.cell c i) = k := by
      refine List.filter_congr fun i _ => ?_
      rw [decide_eq_decide]
      constructor
      · intro e
        rw [map_eq_of_subset (fun c hc => (hmem c).mp hc) e, hkey k hk]
      · rintro rfl
        exact List.map_congr_left fun c hc => (keyAt_map (fun c => f.cell c i) ((hmem c).mpr hc)).symm
    rw [this]
  -- lines before columns are dropped
  have hL : ((((K.insertionSort fun a b => Cell.keyLe a b = true).map fun k => (k, v k)).filter fun l =>
      decide (l.2 = [] ∨ ∃ w ∈ l.2, w.2 ≠ .nan))).Perm
      ((K.filter fun k => decide (v k = [] ∨ ∃ w ∈ v k, w.2 ≠ .nan)).map fun k => (names.map (keyAt names k), v k)) := by
    refine (((List.perm_insertionSort _ K).map _).filter _).trans ?_
    rw [List.filter_map]
    refine List.Perm.of_eq ?_
    refine List.map_congr_left fun k hk => ?_
    rw [hkey k (List.mem_of_mem_filter hk)]
  have hL' : ((((((idx.map fun i => names'.map fun c => f.cell c i).dedup).insertionSort fun a b => Cell.keyLe a b = true).map fun k =>
        (k, cols.map fun c => (c, Cell.mean ((idx.filter fun i => (names'.map fun c => f.cell c i) = k).map fun i => f.cell c i)))).filter fun l =>
      decide (l.2 = [] ∨ ∃ w ∈ l.2, w.2 ≠ .nan))).Perm
      ((K.filter fun k => decide (v k = [] ∨ ∃ w ∈ v k, w.2 ≠ .nan)).map fun k => (names'.map (keyAt names k), v k)) := by
    refine ((((List.perm_insertionSort _ _).trans hK').map _).filter _).trans ?_
    rw [List.map_map, List.filter_map]
    refine List.Perm.of_eq ?_
    have e : ∀ k ∈ K, ((fun k => (k, cols.map fun c => (c, Cell.mean ((idx.filter fun i =>
        (names'.map fun c => f.cell c i) = k).map fun i => f.cell c i)))) ∘ fun k => names'.map (keyAt names k)) k =
        (names'.map (keyAt names k), v k) := by
      intro k hk
      simp only [Function.comp_apply, hv' k hk]
    have e2 : (K.filter ((fun l : List Cell × Dict String Cell => decide (l.2 = [] ∨ ∃ w ∈ l.2, w.2 ≠ .nan)) ∘
        ((fun k => (k, cols.map fun c => (c, Cell.mean ((idx.filter fun i =>
        (names'.map fun c => f.cell c i) = k).map fun i => f.cell c i)))) ∘ fun k => names'.map (keyAt names k)))) =
        K.filter fun k => decide (v k = [] ∨ ∃ w ∈ v k, w.2 ≠ .nan) := by
      refine List.filter_congr fun k hk => ?_
      rw [Function.comp_apply, e k hk]
    rw [e2]
    refine List.map_congr_left fun k hk => ?_
    exact e k (List.mem_of_mem_filter hk)
  generalize hM : ((((K.insertionSort fun a b => Cell.keyLe a b = true).map fun k => (k, v k)).filter fun l =>
      decide (l.2 = [] ∨ ∃ w ∈ l.2, w.2 ≠ .nan))) = M at hL
  generalize hM' : ((((((idx.map fun i => names'.map fun c => f.cell c i).dedup).insertionSort fun a b => Cell.keyLe a b = true).map fun k =>
        (k, cols.map fun c => (c, Cell.mean ((idx.filter fun i => (names'.map fun c => f.cell c i) = k).map fun i => f.cell c i)))).filter fun l =>
      decide (l.2 = [] ∨ ∃ w ∈ l.2, w.2 ≠ .nan))) = M' at hL'
  generalize hR : (K.filter fun k => decide (v k = [] ∨ ∃ w ∈ v k, w.2 ≠ .nan)) = R at hL hL'
  have hRK : ∀ k ∈ R, k ∈ K := by
    intro k hk
    rw [← hR] at hk
    exact List.mem_of_mem_filter hk
  have hRn : R.Nodup := hR ▸ hKn.filter _
  have seen : ∀ (N : List (List Cell × Dict String Cell)) (g : List Cell → List Cell), N.Perm (R.map fun k => (g k, v k)) → ∀ w : String × Cell,
      (∃ l' ∈ N, ∃ v' ∈ l'.2, v'.1 = w.1 ∧ v'.2 ≠ .nan) ↔ ∃ k ∈ R, ∃ v' ∈ v k, v'.1 = w.1 ∧ v'.2 ≠ .nan := by
    intro N g hN w
    constructor
    · rintro ⟨l, hl, rest⟩
      obtain ⟨k, hk, rfl⟩ := List.mem_map.mp (hN.mem_iff.mp hl)
      exact ⟨k, hk, rest⟩
    · rintro ⟨k, hk, rest⟩
      exact ⟨_, hN.mem_iff.mpr (List.mem_map_of_mem hk), rest⟩
  refine ⟨R.map fun k => (keyAt names k, (v k).filter fun w => decide (∃ k' ∈ R, ∃ v' ∈ v k', v'.1 = w.1 ∧ v'.2 ≠ .nan)), ?_, ?_, ?_, ?_, ?_⟩
  · have hv1 : (fun k : List Cell => (k, cols.map fun c =>
        (c, Cell.mean ((idx.filter fun i => (names.map fun c => f.cell c i) = k).map fun i => f.cell c i)))) = fun k => (k, v k) := by
      rw [← hv]
    rw [hv1, hM]
    refine (hL.map _).trans ?_
    rw [List.map_map, List.map_map]
    refine List.Perm.of_eq (List.map_congr_left fun k _ => ?_)
    simp only [Function.comp_apply, seen M _ hL]
  · refine (hL'.map _).trans ?_
    rw [List.map_map, List.map_map]
    refine List.Perm.of_eq (List.map_congr_left fun k _ => ?_)
    simp only [Function.comp_apply, seen M' _ hL']
  · rw [List.map_map]
    refine List.Nodup.map_on ?_ hRn
    intro k hk k2 hk2 e
    simp only [Function.comp_apply] at e
    rwa [hkey k (hRK k hk), hkey k2 (hRK k2 hk2)] at e
  · rw [List.map_map]
    refine List.Nodup.map_on ?_ hRn
    intro k hk k2 hk2 e
    exact hinj k (hRK k hk) k2 (hRK k2 hk2) e
  · intro l hl
    obtain ⟨k, hk, rfl⟩ := List.mem_map.mp hl
    obtain ⟨i, hi, rfl⟩ := (hKm k).mp (hRK k hk)
    exact ⟨i, hmask i hi, fun c hc => keyAt_map _ hc⟩

/-! ### Levels that are removed -/

/-- the lines agree with the filters -/
def Agree (xs : List Index) (pt : Pivot) : Prop := ∀ l ∈ pt.lines, List.Forall₂ (fun c x => Index.keeps x c = true) l.1 xs

theorem alone_value {x : Index} (ha : x.isAlone = true) {c : Cell} (hk : x.keeps c = true) : x.values = [c] := by
  unfold Index.isAlone at ha
  simp only [Bool.and_eq_true, Bool.not_eq_true', decide_eq_true_eq] at ha
  unfold Index.keeps at hk
  rw [ha.1] at hk
  simp only [Bool.false_eq_true, if_false, decide_eq_true_eq] at hk
  obtain ⟨y, hy⟩ : ∃ y, x.values = [y] := by
    refine List.length_eq_one_iff.mp ?_
    have : 0 < x.values.length := List.length_pos_of_mem hk
    omega
  rw [hy] at hk ⊢
  rw [List.mem_singleton.mp hk]

/-- the removal of levels fails when all filters give one value, if there are lines -/
theorem removeUseless_raises {xs : List Index} {pt : Pivot} (hk : Agree xs pt) (hl : pt.lines ≠ []) :
    (∃ e, pt.removeUseless xs = .error e) ↔ ∀ x ∈ xs, x.isAlone = true := by
  induction xs generalizing pt with
  | nil => simp [Pivot.removeUseless]
  | cons x xs ih =>
    rw [Pivot.removeUseless]
    obtain ⟨l, hl'⟩ := List.exists_mem_of_ne_nil _ hl
    by_cases ha : x.isAlone = true
    · rw [if_pos ha]
      obtain ⟨c, l', h1, h2, h3⟩ := List.forall₂_cons_right_iff.mp (hk l hl')
      have hv := alone_value ha h1
      rw [hv]
      simp only
      rw [if_pos (List.any_eq_true.mpr ⟨l, hl', by simp [h3]⟩), ih]
      · simp [ha]
      · intro m hm
        obtain ⟨m0, hm0, rfl⟩ := List.mem_map.mp hm
        obtain ⟨d, m', g1, g2, g3⟩ := List.forall₂_cons_right_iff.mp (hk m0 (List.mem_of_mem_filter hm0))
        simp only [g3, List.tail_cons]
        exact g2
      · rw [ne_eq, List.map_eq_nil_iff, List.filter_eq_nil_iff]
        intro h
        exact h l hl' (by simp [h3])
    · rw [if_neg ha]
      constructor
      · rintro ⟨e, he⟩
        cases he
      · intro h
        exact absurd (h x List.mem_cons_self) ha

/-- without any line the first filter decides -/
theorem removeUseless_empty {x : Index} {xs : List Index} {pt : Pivot} (hl : pt.lines = []) :
    pt.removeUseless (x :: xs) = if x.isAlone = true ∧ x.values = [] then .error .indexError else .ok pt := by
  rw [Pivot.removeUseless]
  by_cases ha : x.isAlone = true
  · rw [if_pos ha]
    cases hv : x.values with
    | nil => simp [ha]
    | cons k vs => simp [hl]
  · rw [if_neg ha, if_neg (fun h => ha h.1)]

/-! ### One query, two orders -/

/-- what is known of the lines of a query: they are those of the pivot table, less the first levels -/
theorem shows_of {filters : List (IndexKind × IndexArg)} {xs : List Index} {names : List String} {lines : List Line} {P pt : Pivot}
    (hF : List.Forall₂ (fun c x => Index.make c.1 c.2 = .ok x) filters xs)
    (hnames : names = xs.map fun x => x.kind.column)
    (hP : P.levels = names) (hs : P.lines.Pairwise fun a b => Cell.keyLe a.1 b.1 = true)
    (hc : P.lines.Perm (lines.map fun l => (names.map l.1, l.2))) (hd : (lines.map fun l => names.map l.1).Nodup)
    (hk : ∀ l ∈ lines, ∀ x ∈ xs, x.keeps (l.1 x.kind.column) = true)
    (h : P.removeUseless xs = .ok pt) : Presents filters lines pt := by
  have hag : Agree xs P := by
    intro l hl
    obtain ⟨m, hm, rfl⟩ := List.mem_map.mp (hc.mem_iff.mp hl)
    simp only [hnames, List.map_map, List.forall₂_map_left_iff]
    rw [List.forall₂_same]
    intro x hx
    exact hk m hm x hx
  obtain ⟨dropped, kept, e1, e2, e3, e4, e5, _⟩ := removeUseless_ok h (by rw [hP, hnames]) hag
  have hcol : (filters.map fun f => f.1.column) = names := by
    rw [hnames]
    clear hnames hP hc hd hk h hag e1
    induction hF with
    | nil => rfl
    | cons hm _ ih => rw [List.map_cons, List.map_cons, ih, Index.make_kind hm]
  have hnm : names = (dropped.map fun x => x.kind.column) ++ pt.levels := by
    rw [hnames, e1, List.map_append, e3]
  have hconst : ∀ x ∈ dropped, ∃ c, ∀ l ∈ lines, l.1 x.kind.column = c := by
    intro x hx
    obtain ⟨ha, k, hv⟩ := e2 x hx
    refine ⟨k, fun l hl => ?_⟩
    have := alone_value ha (hk l hl x (by rw [e1]; exact List.mem_append_left _ hx))
    rw [hv] at this
    exact (List.cons.inj this).1.symm
  refine ⟨?_, ?_, ?_, e5 hs, ?_, ?_⟩
  · rw [e4]
    refine (hc.map _).trans ?_
    rw [List.map_map]
    refine List.Perm.of_eq (List.map_congr_left fun l _ => ?_)
    simp only [Function.comp_apply, hnm, List.map_append]
    rw [List.drop_left' (by simp)]
  · refine List.Nodup.of_map (fun k => k) ?_
    rw [List.map_map]
    refine List.Nodup.map_on ?_ hd.of_map
    intro l hl m hm e
    simp only [Function.comp_apply] at e
    refine List.inj_on_of_nodup_map hd hl hm ?_
    simp only [hnm, List.map_append, e]
    congr 1
    rw [List.map_map, List.map_map]
    refine List.map_congr_left fun x hx => ?_
    obtain ⟨c, hc⟩ := hconst x hx
    simp only [Function.comp_apply, hc l hl, hc m hm]
  · exact ⟨_, by rw [hcol, hnm]⟩
  · intro f hf hnot
    have : f.1.column ∈ names := hcol ▸ List.mem_map_of_mem hf
    rw [hnm, List.mem_append] at this
    obtain ⟨x, hx, e⟩ := List.mem_map.mp (this.resolve_right hnot)
    rw [← e]
    exact hconst x hx
  · intro k c hf l hl
    obtain ⟨x, hx, hm⟩ : ∃ x ∈ xs, Index.make k (.one c) = .ok x := by
      clear hnames hP hc hd hk h hag e1 hcol
      induction hF with
      | nil => cases hf
      | @cons f x _ _ hm _ ih =>
        rcases List.mem_cons.mp hf with rfl | hf
        · exact ⟨x, List.mem_cons_self, hm⟩
        · obtain ⟨y, hy, hy'⟩ := ih hf
          exact ⟨y, List.mem_cons_of_mem _ hy, hy'⟩
    cases hm
    have := hk l hl _ hx
    simpa [Index.keeps] using this

theorem pivot_sorted (f : Frame) (names : List String) (mask : ℕ → Bool) :
    (f.pivot names mask).lines.Pairwise fun a b => Cell.keyLe a.1 b.1 = true := by
  unfold Frame.pivot
  simp only
  rw [List.pairwise_map]
  refine List.Pairwise.filter _ ?_
  rw [List.pairwise_map]
  exact List.pairwise_insertionSort _ _

theorem query_order (f : Frame) {filters filters' : List (IndexKind × IndexArg)} {x : Index} {ys ys' : List Index} (hp : ys.Perm ys')
    (hF : List.Forall₂ (fun c x => Index.make c.1 c.2 = .ok x) filters (x :: ys))
    (hF' : List.Forall₂ (fun c x => Index.make c.1 c.2 = .ok x) filters' (x :: ys')) :
    (∃ e e', f.query (x :: ys) = .error e ∧ f.query (x :: ys') = .error e') ∨
    ∃ lines pt pt', f.query (x :: ys) = .ok pt ∧ f.query (x :: ys') = .ok pt' ∧ Presents filters lines pt ∧ Presents filters' lines pt' := by
  have hp' : (x :: ys).Perm (x :: ys') := hp.cons x
  have hmask : (fun i => (x :: ys).all fun x => x.keeps (f.cell x.kind.column i)) =
      fun i => (x :: ys').all fun x => x.keeps (f.cell x.kind.column i) := by
    funext i
    exact hp'.all_eq
  unfold Frame.query
  by_cases hcol : ∀ y ∈ x :: ys, f.Has y.kind.column
  · rw [if_pos hcol, if_pos fun y hy => hcol y (hp'.mem_iff.mpr hy)]
    obtain ⟨lines, h1, h2, h3, h4, h5⟩ := pivot_lines f (hp'.map fun x => x.kind.column) hmask
    have hk : ∀ l ∈ lines, ∀ y ∈ x :: ys, y.keeps (l.1 y.kind.column) = true := by
      intro l hl y hy
      obtain ⟨i, hi, hi'⟩ := h5 l hl
      rw [hi' _ (List.mem_map_of_mem hy)]
      exact List.all_eq_true.mp hi y hy
    have hk' : ∀ l ∈ lines, ∀ y ∈ x :: ys', y.keeps (l.1 y.kind.column) = true :=
      fun l hl y hy => hk l hl y (hp'.mem_iff.mpr hy)
    have agree : ∀ (zs : List Index) (P : Pivot), P.lines.Perm (lines.map fun l => ((zs.map fun x => x.kind.column).map l.1, l.2)) →
        (∀ l ∈ lines, ∀ y ∈ zs, y.keeps (l.1 y.kind.column) = true) → Agree zs P := by
      intro zs P hP hz l hl
      obtain ⟨m, hm, rfl⟩ := List.mem_map.mp (hP.mem_iff.mp hl)
      simp only [List.map_map, List.forall₂_map_left_iff]
      rw [List.forall₂_same]
      intro y hy
      exact hz m hm y hy
    have s1 := pivot_sorted f ((x :: ys).map fun x => x.kind.column) fun i => (x :: ys).all fun x => x.keeps (f.cell x.kind.column i)
    have s2 := pivot_sorted f ((x :: ys').map fun x => x.kind.column) fun i => (x :: ys').all fun x => x.keeps (f.cell x.kind.column i)
    have l1 : (f.pivot ((x :: ys).map fun x => x.kind.column) fun i => (x :: ys).all fun x => x.keeps (f.cell x.kind.column i)).levels =
      (x :: ys).map fun x => x.kind.column := rfl
    have l2 : (f.pivot ((x :: ys').map fun x => x.kind.column) fun i => (x :: ys').all fun x => x.keeps (f.cell x.kind.column i)).levels =
      (x :: ys').map fun x => x.kind.column := rfl
    generalize (f.pivot ((x :: ys).map fun x => x.kind.column) fun i => (x :: ys).all fun x => x.keeps (f.cell x.kind.column i)) = P at *
    generalize (f.pivot ((x :: ys').map fun x => x.kind.column) fun i => (x :: ys').all fun x => x.keeps (f.cell x.kind.column i)) = P' at *
    have hiff : (∃ e, P.removeUseless (x :: ys) = .error e) ↔ ∃ e, P'.removeUseless (x :: ys') = .error e := by
      by_cases h0 : lines = []
      · subst h0
        have e1 : P.lines = [] := List.perm_nil.mp h1
        have e2 : P'.lines = [] := List.perm_nil.mp h2
        rw [removeUseless_empty e1, removeUseless_empty e2]
        split_ifs <;> simp
      · have e1 : P.lines ≠ [] := fun e => h0 (by simpa [e] using h1)
        have e2 : P'.lines ≠ [] := fun e => h0 (by simpa [e] using h2)
        rw [removeUseless_raises (agree _ P h1 hk) e1, removeUseless_raises (agree _ P' h2 hk') e2]
        exact ⟨fun h y hy => h y (hp'.mem_iff.mpr hy), fun h y hy => h y (hp'.mem_iff.mp hy)⟩
    cases e : P.removeUseless (x :: ys) with
    | error e1 =>
      obtain ⟨e2, h⟩ := hiff.mp ⟨e1, e⟩
      exact .inl ⟨e1, e2, rfl, h⟩
    | ok pt =>
      cases e' : P'.removeUseless (x :: ys') with
      | error e2 =>
        obtain ⟨e1, h⟩ := hiff.mpr ⟨e2, e'⟩
        rw [e] at h
        cases h
      | ok pt' =>
        exact .inr ⟨lines, pt, pt', rfl, rfl, shows_of hF rfl l1 s1 h1 h3 hk e, shows_of hF' rfl l2 s2 h2 h4 hk' e'⟩
  · rw [if_neg hcol, if_neg fun h => hcol fun y hy => h y (hp'.mem_iff.mp hy)]
    exact .inl ⟨_, _, rfl, rfl⟩

/-! ### Chains of calls that are incomplete -/

theorem chain_selector {a : Analyzer} {calls : List (IndexKind × IndexArg)} {ix : List Index} {q : Selector}
    (h : Selector.chain a ⟨ix, ix⟩ calls = .ok (.selector q)) (hl : ix.length < 5) (hn : (ix.map fun x => x.kind.dim).Nodup) :
    ∃ xs, List.Forall₂ (fun c x => Index.make c.1 c.2 = .ok x) calls xs ∧ (ix ++ xs).length < 5 ∧
      ((ix ++ xs).map fun x => x.kind.dim).Nodup ∧ (∀ x ∈ xs, x.kind ≠ .network) ∧ q = ⟨ix ++ xs, ix ++ xs⟩ := by
  induction calls generalizing ix with
  | nil =>
    cases h
    exact ⟨[], .nil, by simpa using hl, by simpa using hn, by simp, by simp⟩
  | cons c calls ih =>
    obtain ⟨k, arg⟩ := c
    rw [Selector.chain] at h
    unfold Selector.call at h
    by_cases ho : Selector.offers ⟨ix, ix⟩ k = true
    · rw [if_pos ho] at h
      rw [Selector.offers_iff] at ho
      cases hm : Index.make k arg with
      | error e => rw [hm] at h; cases h
      | ok x =>
        rw [hm] at h
        have hk := Index.make_kind hm
        have hn' : ((ix ++ [x]).map fun x => x.kind.dim).Nodup := by
          rw [List.map_append, List.nodup_append]
          refine ⟨hn, by simp, ?_⟩
          intro d hd d' hd'
          simp only [List.map_cons, List.map_nil, List.mem_singleton] at hd'
          rintro rfl
          rw [hd', hk] at hd
          exact ho.2 hd
        simp only at h
        by_cases h5 : (ix ++ [x]).length = fullDescription
        · rw [if_pos h5] at h
          cases hf : a.filter (ix ++ [x]) with
          | error e => rw [hf] at h; cases h
          | ok t' =>
            rw [hf] at h
            simp only [Except.map] at h
            split_ifs at h
            cases h
        · rw [if_neg h5] at h
          simp only at h
          have hl' : (ix ++ [x]).length < 5 := by
            unfold fullDescription at h5
            rw [List.length_append, List.length_singleton] at h5 ⊢
            omega
          obtain ⟨xs, e1, e2, e3, e4, e5⟩ := ih h hl' hn'
          refine ⟨x :: xs, .cons hm e1, ?_⟩
          rw [List.append_assoc] at e2 e3 e5
          refine ⟨e2, e3, ?_, e5⟩
          intro y hy
          rcases List.mem_cons.mp hy with rfl | hy
          · rw [hk]; exact ho.1
          · exact e4 y hy
    · rw [if_neg ho] at h; cases h

theorem chain_incomplete {a : Analyzer} {calls : List (IndexKind × IndexArg)} {ix xs : List Index}
    (hF : List.Forall₂ (fun c x => Index.make c.1 c.2 = .ok x) calls xs) (h5 : (ix ++ xs).length < 5)
    (hn : ((ix ++ xs).map fun x => x.kind.dim).Nodup) (h0 : ∀ x ∈ xs, x.kind ≠ .network) :
    Selector.chain a ⟨ix, ix⟩ calls = .ok (.selector ⟨ix ++ xs, ix ++ xs⟩) := by
  induction hF generalizing ix with
  | nil => rw [Selector.chain, List.append_nil]
  | @cons c x calls xs hm hF ih =>
    obtain ⟨k, arg⟩ := c
    have hk : x.kind = k := Index.make_kind hm
    rw [Selector.chain]
    unfold Selector.call
    have ho : Selector.offers ⟨ix, ix⟩ k = true := by
      rw [Selector.offers_iff, ← hk]
      refine ⟨h0 x List.mem_cons_self, ?_⟩
      rw [List.map_append, List.nodup_append] at hn
      intro hd
      exact hn.2.2 _ hd _ (List.mem_map_of_mem List.mem_cons_self) rfl
    rw [if_pos ho]
    simp only at hm
    rw [hm]
    simp only
    have h6 : (ix ++ [x]).length ≠ fullDescription := by
      unfold fullDescription
      simp only [List.length_append, List.length_cons, List.length_nil] at h5 ⊢
      omega
    rw [if_neg h6]
    simp only
    have := ih (ix := ix ++ [x]) (by simpa using h5) (by simpa using hn) (fun y hy => h0 y (List.mem_cons_of_mem _ hy))
    rw [this, List.append_assoc]
    rfl

/-- the filters in another order -/
theorem made_perm {calls calls' : List (IndexKind × IndexArg)} {xs : List Index} (hp : calls.Perm calls')
    (hF : List.Forall₂ (fun c x => Index.make c.1 c.2 = .ok x) calls xs) :
    ∃ xs', xs.Perm xs' ∧ List.Forall₂ (fun c x => Index.make c.1 c.2 = .ok x) calls' xs' := by
  obtain ⟨xs', h1, h2⟩ := List.perm_comp_forall₂ hp.symm hF
  exact ⟨xs', h2.symm, h1⟩

/-- a chain that gives something gives something of the same sort in any order -/
theorem order_ok (a : Analyzer) {g : IndexArg} {calls calls' : List (IndexKind × IndexArg)} (hp : calls.Perm calls') {x : Index}
    (hx : Index.make .network g = .ok x) {r : Reply} (h : Selector.chain a ⟨[x], [x]⟩ calls = .ok r) :
    SameOutcome ((.network, g) :: calls) ((.network, g) :: calls') (.ok r) (Selector.chain a ⟨[x], [x]⟩ calls') := by
  have hxk := Index.make_kind hx
  have hnet : ∀ {ys : List Index}, (([x] ++ ys).map fun x => x.kind.dim).Nodup → ∀ y ∈ ys, y.kind ≠ .network := by
    intro ys hn y hy e
    rw [List.map_append, List.nodup_append] at hn
    exact hn.2.2 x.kind.dim (by simp) y.kind.dim (List.mem_map_of_mem hy) (by rw [e, hxk])
  cases r with
  | selector q =>
    obtain ⟨ys, h1, h2, h3, h4, h5⟩ := chain_selector h (by simp) (by simp)
    obtain ⟨ys', h6, h7⟩ := made_perm hp h1
    have hq : ([x] ++ ys).Perm ([x] ++ ys') := h6.append_left _
    rw [chain_incomplete h7 (by rw [← hq.length_eq]; exact h2) ((hq.map _).nodup_iff.mp h3) (fun y hy => h4 y (h6.mem_iff.mpr hy)), h5]
    exact .selector _ _ hq
  | table t =>
    obtain ⟨ys, h1, h2, h3, h4⟩ := chain_table h (by simp) (by simp)
    obtain ⟨ys', h6, h7⟩ := made_perm hp h1
    have hq : ([x] ++ ys).Perm ([x] ++ ys') := h6.append_left _
    have h2' : ([x] ++ ys').length = 5 := by rw [← hq.length_eq]; exact h2
    have h3' := (hq.map fun x => x.kind.dim).nodup_iff.mp h3
    have hne : ys' ≠ [] := by
      rintro rfl
      simp at h2'
    rw [chain_complete h7 h2' h3' (hnet h3') hne]
    obtain ⟨y, hy, hye, e1⟩ := filter_complete (a := a) h2 h3
    obtain ⟨z, hz, hze, e2⟩ := filter_complete (a := a) h2' h3'
    have : y = z := List.inj_on_of_nodup_map h3 hy (hq.mem_iff.mpr hz) (by simp only [dim_element.mpr hye, dim_element.mpr hze])
    subst this
    rw [e2]
    rw [e1] at h4
    rcases query_order (filters := (.network, g) :: calls) (filters' := (.network, g) :: calls') (a.tableOf y.kind) h6 (.cons hx h1) (.cons hx h7) with ⟨e, e', q1, q2⟩ | ⟨lines, pt, pt', q1, q2, s1, s2⟩
    · rw [List.singleton_append, q1] at h4
      cases h4
    · rw [List.singleton_append, q1] at h4
      cases h4
      rw [List.singleton_append, q2]
      exact .table lines pt pt' s1 s2

theorem SameOutcome.symm {fs fs' : List (IndexKind × IndexArg)} {r r' : Except PyErr Reply} (h : SameOutcome fs fs' r r') :
    SameOutcome fs' fs r' r := by
  cases h with
  | error e e' => exact .error e' e
  | selector q q' h => exact .selector q' q h.symm
  | table lines pt pt' h h' => exact .table lines pt' pt h' h

theorem ask_order (a : Analyzer) (g : IndexArg) {calls calls' : List (IndexKind × IndexArg)} (hp : calls.Perm calls') :
    SameOutcome ((.network, g) :: calls) ((.network, g) :: calls') (a.ask g calls) (a.ask g calls') := by
  unfold Analyzer.ask Analyzer.network
  cases hx : Index.make .network g with
  | error e => exact .error e e
  | ok x =>
    simp only [bind, Except.bind, pure, Except.pure]
    cases h : Selector.chain a ⟨[x], [x]⟩ calls with
    | ok r => exact order_ok a hp hx h
    | error e =>
      cases h' : Selector.chain a ⟨[x], [x]⟩ calls' with
      | error e' => exact .error e e'
      | ok r =>
        have := order_ok a hp.symm hx h'
        rw [h] at this
        exact SameOutcome.symm this

/-! ### The same values in another order -/

/-- indexes that keep the same values -/
structure Alike (x y : Index) : Prop where
  kind : x.kind = y.kind
  all : x.all = y.all
  values : x.values.Perm y.values

theorem Alike.keeps {x y : Index} (h : Alike x y) (c : Cell) : x.keeps c = y.keeps c := by
  unfold Index.keeps
  simp only [h.all, h.values.mem_iff]

theorem Alike.isAlone {x y : Index} (h : Alike x y) : x.isAlone = y.isAlone := by
  unfold Index.isAlone
  rw [h.all, h.values.length_eq]

theorem make_alike {k : IndexKind} {arg arg' : IndexArg} (h : SameValues arg arg') :
    (∃ e, Index.make k arg = .error e ∧ Index.make k arg' = .error e) ∨
    ∃ x y, Index.make k arg = .ok x ∧ Index.make k arg' = .ok y ∧ Alike x y := by
  cases h with
  | same =>
    cases h : Index.make k arg with
    | error e => exact .inl ⟨e, rfl, rfl⟩
    | ok x => exact .inr ⟨x, x, rfl, rfl, rfl, rfl, .refl _⟩
  | lists l l' h => exact .inr ⟨_, _, rfl, rfl, rfl, by simp only; rw [h.isEmpty_eq], h⟩
  | tuples l l' h => exact .inr ⟨_, _, rfl, rfl, rfl, rfl, h⟩

theorem removeUseless_alike {xs ys : List Index} (h : List.Forall₂ Alike xs ys) (pt : Pivot) :
    pt.removeUseless xs = pt.removeUseless ys := by
  induction h generalizing pt with
  | nil => rfl
  | @cons x y xs ys hxy _ ih =>
    rw [Pivot.removeUseless, Pivot.removeUseless, hxy.isAlone]
    by_cases ha : y.isAlone = true
    · rw [if_pos ha, if_pos ha]
      have hv : x.values = y.values := by
        unfold Index.isAlone at ha
        simp only [Bool.and_eq_true, decide_eq_true_eq] at ha
        match hy : y.values, hx : x.values, hxy.values with
        | [], _, hp => exact List.perm_nil.mp hp
        | [b], _, hp => exact List.perm_singleton.mp hp
        | b :: c :: l, _, _ => rw [hy] at ha; simp at ha
      rw [hv]
      split
      · rfl
      · simp only [ih]
    · rw [if_neg ha, if_neg ha]

theorem query_alike (f : Frame) {xs ys : List Index} (h : List.Forall₂ Alike xs ys) : f.query xs = f.query ys := by
  have hcol : (xs.map fun x => x.kind.column) = ys.map fun x => x.kind.column := by
    induction h with
    | nil => rfl
    | cons hxy _ ih => rw [List.map_cons, List.map_cons, hxy.kind, ih]
  have hhas : (∀ x ∈ xs, f.Has x.kind.column) ↔ ∀ x ∈ ys, f.Has x.kind.column := by
    have : (∀ c ∈ xs.map fun x => x.kind.column, f.Has c) ↔ ∀ c ∈ ys.map fun x => x.kind.column, f.Has c := by rw [hcol]
    simpa using this
  have hmask : (fun i => xs.all fun x => x.keeps (f.cell x.kind.column i)) = fun i => ys.all fun x => x.keeps (f.cell x.kind.column i) := by
    funext i
    clear hcol hhas
    induction h with
    | nil => rfl
    | cons hxy _ ih => rw [List.all_cons, List.all_cons, ih, hxy.keeps, hxy.kind]
  unfold Frame.query
  simp only [hhas, hcol, hmask, removeUseless_alike h]

theorem filter_alike (a : Analyzer) {xs ys : List Index} (h : List.Forall₂ Alike xs ys) : a.filter xs = a.filter ys := by
  have hc : ∀ k, checkIndex xs k = checkIndex ys k := by
    intro k
    unfold checkIndex
    induction h with
    | nil => rfl
    | cons hxy _ ih => rw [List.any_cons, List.any_cons, ih, hxy.kind]
  unfold Analyzer.filter assertIndex
  simp only [hc, query_alike _ h]

theorem chain_alike (a : Analyzer) {calls calls' : List (IndexKind × IndexArg)}
    (hc : List.Forall₂ (fun c c' => c.1 = c'.1 ∧ SameValues c.2 c'.2) calls calls') {ix iy : List Index} (h : List.Forall₂ Alike ix iy) :
    SameTable (Selector.chain a ⟨ix, ix⟩ calls) (Selector.chain a ⟨iy, iy⟩ calls') := by
  induction hc generalizing ix iy with
  | nil => exact .selector _ _
  | @cons c c' calls calls' hcc hrest ih =>
    obtain ⟨k, arg⟩ := c
    obtain ⟨k', arg'⟩ := c'
    obtain ⟨rfl, hv⟩ := hcc
    simp only at hv
    have hkind : (ix.map fun x => x.kind.dim) = iy.map fun x => x.kind.dim := by
      clear ih
      induction h with
      | nil => rfl
      | cons hxy _ ih => rw [List.map_cons, List.map_cons, hxy.kind, ih]
    have ho : Selector.offers ⟨ix, ix⟩ k = Selector.offers ⟨iy, iy⟩ k := by
      rw [Bool.eq_iff_iff, Selector.offers_iff, Selector.offers_iff]
      simp only [hkind]
    have hnil : calls = [] ↔ calls' = [] := by
      cases hrest with
      | nil => simp
      | cons _ _ => simp
    rw [Selector.chain, Selector.chain]
    unfold Selector.call
    rw [ho]
    by_cases hof : Selector.offers ⟨iy, iy⟩ k = true
    · rw [if_pos hof, if_pos hof]
      rcases make_alike (k := k) hv with ⟨e, e1, e2⟩ | ⟨x, y, e1, e2, hxy⟩
      · rw [e1, e2]; exact .error e
      · rw [e1, e2]
        have h' : List.Forall₂ Alike (ix ++ [x]) (iy ++ [y]) := List.rel_append h (.cons hxy .nil)
        simp only [h'.length_eq]
        by_cases h5 : (iy ++ [y]).length = fullDescription
        · rw [if_pos h5, if_pos h5, filter_alike a h']
          cases a.filter (iy ++ [y]) with
          | error e => exact .error e
          | ok t =>
            simp only [Except.map, hnil]
            split_ifs
            · exact .table t
            · exact .error _
        · rw [if_neg h5, if_neg h5]
          exact ih h'
    · rw [if_neg hof, if_neg hof]
      exact .error _

theorem ask_alike (a : Analyzer) {g g' : IndexArg} {calls calls' : List (IndexKind × IndexArg)} (hg : SameValues g g')
    (hc : List.Forall₂ (fun c c' => c.1 = c'.1 ∧ SameValues c.2 c'.2) calls calls') : SameTable (a.ask g calls) (a.ask g' calls') := by
  unfold Analyzer.ask Analyzer.network
  rcases make_alike (k := .network) hg with ⟨e, e1, e2⟩ | ⟨x, y, e1, e2, hxy⟩
  · rw [e1, e2]; exact .error e
  · rw [e1, e2]
    exact chain_alike a hc (.cons hxy .nil)

end Hadar
