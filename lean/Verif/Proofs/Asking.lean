import Verif.Spec.Asking
import Verif.Props.Query

/-!
# Lemmas on refused queries
-/

namespace Hadar

open Spec Props

theorem make_fault {k : IndexKind} {arg : IndexArg} (hk : ∀ a b c, arg = .slice a b c → k = .time ∨ k = .scn) :
    (∀ e, argFault arg = some e → Index.make k arg = .error e) ∧
    (argFault arg = none → ∃ x, Index.make k arg = .ok x) := by
  cases arg with
  | none => exact ⟨fun e h => (by cases h), fun _ => ⟨_, rfl⟩⟩
  | list l => exact ⟨fun e h => (by cases h), fun _ => ⟨_, rfl⟩⟩
  | tuple l => exact ⟨fun e h => (by cases h), fun _ => ⟨_, rfl⟩⟩
  | one c => exact ⟨fun e h => (by cases h), fun _ => ⟨_, rfl⟩⟩
  | slice a b c =>
    have hkk : (k = .time ∨ k = .scn) = True := eq_true (hk a b c rfl)
    clear hk
    have hc : c.getD 1 = 0 ↔ c = some 0 := by cases c <;> simp
    cases a with
    | none =>
      by_cases h : c = some 0
      · subst h
        simp only [Index.make, hkk, if_true]
        simp [argFault, Index.make, Index.ofSlice, bind, Except.bind, pyRange]
      · have h' : ¬ c.getD 1 = 0 := fun e => h (hc.mp e)
        simp only [Index.make, hkk, if_true]
        simp [argFault, Index.make, Index.ofSlice, bind, Except.bind, pyRange, h, h', pure, Except.pure]
    | some a =>
      cases b with
      | none =>
        simp only [Index.make, hkk, if_true]
        simp [argFault, Index.ofSlice, bind, Except.bind]
      | some b =>
        by_cases h : c = some 0
        · subst h
          simp only [Index.make, hkk, if_true]
          simp [argFault, Index.make, Index.ofSlice, bind, Except.bind, pyRange]
        · have h' : ¬ c.getD 1 = 0 := fun e => h (hc.mp e)
          simp only [Index.make, hkk, if_true]
          simp [argFault, Index.make, Index.ofSlice, bind, Except.bind, pyRange, h, h', pure, Except.pure]

theorem taken_iff {ix : List Index} (h0 : ∃ x ∈ ix, x.kind = .network) (k : IndexKind) :
    Taken (ix.map fun x => x.kind) k ↔ ¬ Selector.offers ⟨ix, ix⟩ k = true := by
  rw [Selector.offers_iff]
  constructor
  · rintro (h | ⟨hk, u, hu, hue⟩) ⟨h1, h2⟩
    · obtain ⟨x, hx, rfl⟩ := List.mem_map.mp h
      exact h2 (List.mem_map_of_mem (f := fun x : Index => x.kind.dim) hx)
    · obtain ⟨x, hx, rfl⟩ := List.mem_map.mp hu
      refine h2 (List.mem_map.mpr ⟨x, hx, ?_⟩)
      rw [dim_element.mpr hk, dim_element.mpr hue]
  · intro h
    by_cases hk : k = .network
    · subst hk
      obtain ⟨x, hx, e⟩ := h0
      exact .inl (List.mem_map.mpr ⟨x, hx, e⟩)
    · have h2 : k.dim ∈ ix.map fun x => x.kind.dim := by
        by_contra h2
        exact h ⟨hk, h2⟩
      obtain ⟨x, hx, e⟩ := List.mem_map.mp h2
      by_cases hke : k.isElement = true
      · refine .inr ⟨hke, x.kind, List.mem_map_of_mem (f := fun x : Index => x.kind) hx, ?_⟩
        rw [← dim_element, e, dim_element]
        exact hke
      · refine .inl (List.mem_map.mpr ⟨x, hx, ?_⟩)
        exact (dim_inj e.symm (by simpa using hke)).symm

/-- the calls are made in turn: either one of them stops the chain, or the selectors are built -/
theorem chain_outcome {a : Analyzer} {calls : List (IndexKind × IndexArg)} {ix : List Index}
    (h0 : ∃ x ∈ ix, x.kind = .network) (hl : ix.length < 5) (hn : (ix.map fun x => x.kind.dim).Nodup)
    (hs : SlicesFit (calls.take (5 - ix.length))) :
    (∀ e, Stops (ix.map fun x => x.kind) (calls.take (5 - ix.length)) e →
      Selector.chain a ⟨ix, ix⟩ calls = .error e) ∧
    ((∀ e, ¬ Stops (ix.map fun x => x.kind) (calls.take (5 - ix.length)) e) →
      ∃ xs, List.Forall₂ (fun c x => Index.make c.1 c.2 = .ok x) (calls.take (5 - ix.length)) xs ∧
        ((ix ++ xs).map fun x => x.kind.dim).Nodup ∧
        (calls.length < 5 - ix.length →
          Selector.chain a ⟨ix, ix⟩ calls = .ok (.selector ⟨ix ++ xs, ix ++ xs⟩)) ∧
        (5 - ix.length ≤ calls.length → Selector.chain a ⟨ix, ix⟩ calls =
          match a.filter (ix ++ xs) with
          | .error e => .error e
          | .ok t => if calls.length = 5 - ix.length then .ok (.table t) else .error .attributeError)) := by
  induction calls generalizing ix with
  | nil =>
    rw [List.take_nil]
    refine ⟨fun e h => (by cases h), fun _ => ⟨[], .nil, by simpa using hn, ?_, ?_⟩⟩
    · intro _
      rw [List.append_nil]
      rfl
    · intro h
      simp only [List.length_nil] at h
      omega
  | cons c calls ih =>
    obtain ⟨k, arg⟩ := c
    obtain ⟨m, hm⟩ : ∃ m, 5 - ix.length = m + 1 := ⟨4 - ix.length, by omega⟩
    rw [hm, List.take_succ_cons] at hs ⊢
    have hti := taken_iff h0 k
    have hfit : ∀ a b c, arg = .slice a b c → k = .time ∨ k = .scn :=
      fun a b c e => hs k a b c (by rw [e]; exact List.mem_cons_self)
    obtain ⟨hf1, hf2⟩ := make_fault hfit
    by_cases ho : Selector.offers ⟨ix, ix⟩ k = true
    · have hnt : ¬ Taken (ix.map fun x => x.kind) k := fun h => hti.mp h ho
      cases hfa : argFault arg with
      | some e' =>
        have hc : Selector.chain a ⟨ix, ix⟩ ((k, arg) :: calls) = .error e' := by
          rw [Selector.chain]
          unfold Selector.call
          rw [if_pos ho, hf1 e' hfa]
        refine ⟨?_, fun h => absurd (Stops.arg hnt hfa) (h e')⟩
        intro e h
        cases h with
        | again h => exact absurd h hnt
        | arg _ h => rw [hfa] at h; cases h; exact hc
        | later _ h _ => rw [hfa] at h; cases h
      | none =>
        obtain ⟨x, hx⟩ := hf2 hfa
        have hk := Index.make_kind hx
        have ho' := (Selector.offers_iff _ _).mp ho
        have hn' : ((ix ++ [x]).map fun x => x.kind.dim).Nodup := by
          rw [List.map_append, List.nodup_append]
          refine ⟨hn, by simp, ?_⟩
          intro d hd d' hd'
          simp only [List.map_cons, List.map_nil, List.mem_singleton] at hd'
          rintro rfl
          rw [hd', hk] at hd
          exact ho'.2 hd
        by_cases h5 : (ix ++ [x]).length = fullDescription
        · have hm0 : m = 0 := by
            unfold fullDescription at h5
            rw [List.length_append, List.length_singleton] at h5
            omega
          subst hm0
          rw [List.take_zero]
          refine ⟨?_, ?_⟩
          · intro e h
            cases h with
            | again h => exact absurd h hnt
            | arg _ h => rw [hfa] at h; cases h
            | later _ _ h => cases h
          · intro _
            refine ⟨[x], .cons hx .nil, hn', ?_, ?_⟩
            · intro h
              simp only [List.length_cons] at h
              omega
            · intro _
              rw [Selector.chain]
              unfold Selector.call
              rw [if_pos ho, hx]
              simp only [h5, if_true]
              cases a.filter (ix ++ [x]) with
              | error e => rfl
              | ok t =>
                simp only [Except.map]
                cases calls <;> simp
        · have hl' : (ix ++ [x]).length < 5 := by
            unfold fullDescription at h5
            rw [List.length_append, List.length_singleton] at h5 ⊢
            omega
          have em : 5 - (ix ++ [x]).length = m := by
            rw [List.length_append, List.length_singleton]
            omega
          have hstep : Selector.chain a ⟨ix, ix⟩ ((k, arg) :: calls) =
              Selector.chain a ⟨ix ++ [x], ix ++ [x]⟩ calls := by
            rw [Selector.chain]
            unfold Selector.call
            rw [if_pos ho, hx]
            simp only [h5, if_false]
          have ek : (ix ++ [x]).map (fun x => x.kind) = (ix.map fun x => x.kind) ++ [k] := by
            rw [List.map_append, List.map_singleton, hk]
          obtain ⟨h0x, hx0, e0⟩ := h0
          obtain ⟨i1, i2⟩ := ih (ix := ix ++ [x]) ⟨h0x, List.mem_append_left _ hx0, e0⟩ hl' hn'
            (by rw [em]; exact fun k a b c h => hs k a b c (List.mem_cons_of_mem _ h))
          rw [em, ek] at i1 i2
          rw [hstep]
          refine ⟨?_, ?_⟩
          · intro e h
            cases h with
            | again h => exact absurd h hnt
            | arg _ h => rw [hfa] at h; cases h
            | later _ _ h => exact i1 e h
          · intro h
            obtain ⟨xs, j1, j2, j3, j4⟩ := i2 fun e he => h e (.later hnt hfa he)
            rw [List.append_assoc] at j2 j3 j4
            refine ⟨x :: xs, .cons hx j1, j2, ?_, ?_⟩
            · intro h
              rw [List.length_cons] at h
              exact j3 (by omega)
            · intro h
              rw [List.length_cons] at h
              rw [j4 (by omega)]
              simp only [List.length_cons, List.singleton_append, Nat.add_right_cancel_iff]
    · have ht := hti.mpr ho
      have hc : Selector.chain a ⟨ix, ix⟩ ((k, arg) :: calls) = .error .attributeError := by
        rw [Selector.chain]
        unfold Selector.call
        rw [if_neg ho]
      refine ⟨?_, fun h => absurd (Stops.again ht) (h _)⟩
      intro e h
      cases h with
      | again _ => exact hc
      | arg h _ => exact absurd ht h
      | later h _ _ => exact absurd ht h

/-- a table without lines is refused only if there is no network at all -/
theorem removeUseless_lineless {xs : List Index} {x : Index} {pt : Pivot} (h : pt.lines = [])
    (hx : x.isAlone = true → x.values ≠ []) : ∃ pt', pt.removeUseless (x :: xs) = .ok pt' := by
  rw [Pivot.removeUseless]
  split_ifs with ha
  · have := hx ha
    split
    · rename_i e
      exact absurd e this
    · rw [if_neg (by rw [h]; simp)]
      exact ⟨pt, rfl⟩
  · exact ⟨pt, rfl⟩

/-- what a complete query raises -/
theorem filter_fault {junk : Junk} {s : Study} {r : Result} {a : Analyzer} (hb : Built s)
    (hm : Mirrors s r) (ha : Analyzer.init junk s r = .ok a) {g : IndexArg}
    {cs : List (IndexKind × IndexArg)} {kind : IndexKind} {xs : List Index}
    (hF : List.Forall₂ (fun c x => Index.make c.1 c.2 = .ok x) ((.network, g) :: cs) xs)
    (h5 : xs.length = 5) (hn : (xs.map fun x => x.kind.dim).Nodup)
    (hkc : kind ∈ cs.map Prod.fst) (hk : kind.isElement = true) (hr : Reliable s kind)
    (hg : ∀ a b c, g ≠ .slice a b c)
    (hbg : BoundsGiven ((.network, g) :: cs)) (e : PyErr) :
    a.filter xs = .error e ↔ NoTable s r g cs kind e := by
  obtain ⟨y, hy, hye, hq⟩ := filter_complete (a := a) h5 hn
  have hyk : y.kind = kind := by
    obtain ⟨c, hc, rfl⟩ := List.mem_map.mp hkc
    obtain ⟨z, hz, hmz⟩ := Forall₂.exists_left hF (List.mem_cons_of_mem _ hc)
    have := Index.make_kind hmz
    rw [← this] at hk ⊢
    rw [List.inj_on_of_nodup_map hn hy hz (by simp only [dim_element.mpr hye, dim_element.mpr hk])]
  rw [hq]
  have hcol := columns_iff h5 hn hy hye
  rw [hyk] at hcol ⊢
  have hkc : ∀ z ∈ xs, z.kind.column ∈ keyColumns kind :=
    fun z hz => (hcol _).mp (List.mem_map_of_mem (f := fun x : Index => x.kind.column) hz)
  have hto := table_ok hb hm ha hk hr
  by_cases hcv : kind = .srcConv ∨ kind = .destConv → s.converters ≠ []
  · have hhas := table_has hb hm ha hk hr hcv
    have hhas' : ∀ c ∈ xs.map (fun x => x.kind.column), (a.tableOf kind).Has c :=
      fun c hc => hhas c ((hcol c).mp hc)
    subst hyk
    have hmask := query_mask h5 hn hto (fun z hz => hhas _ (hkc z hz)) hkc
    unfold Frame.query
    rw [if_pos (fun z hz => hhas _ (hkc z hz)), Frame.pivot_eq hhas', hmask]
    have hu : (((tableRows s r y.kind).filter fun row =>
        xs.all fun x => x.keeps (Row.at row x.kind.column)).map fun row =>
        (xs.map fun x => x.kind.column).map (Row.at row)).Nodup := by
      refine (List.nodup_map_iff_inj_on (List.Nodup.filter _ hto.unique.of_map)).mpr ?_
      intro a ha b hb' hab
      refine List.inj_on_of_nodup_map hto.unique (List.mem_of_mem_filter ha) (List.mem_of_mem_filter hb') ?_
      unfold identity
      refine List.map_congr_left ?_
      intro c hc
      exact List.map_inj_left.mp hab c ((hcol c).mpr hc)
    obtain ⟨hperm, _⟩ := pivotRows_perm (cols := (((a.tableOf y.kind).names.filter fun c =>
        c.2 ∧ c.1 ∉ xs.map fun x => x.kind.column).map Prod.fst).insertionSort (· ≤ ·)) hu (by
      intro row hrow
      obtain ⟨c, hc, hck, hne⟩ := hto.some
      refine ⟨c.1, (List.mem_insertionSort _).mpr (List.mem_map_of_mem (List.mem_filter.mpr ⟨hc, ?_⟩)),
        hne row (List.mem_of_mem_filter hrow)⟩
      simp only [decide_eq_true_eq]
      exact ⟨(hto.nums c hc hck).1, fun h => hck ((hcol _).mp h)⟩) (by
      intro row hrow c hc
      obtain ⟨c', hc', rfl⟩ := List.mem_map.mp ((List.mem_insertionSort _).mp hc)
      have h1 := List.of_mem_filter hc'
      simp only [decide_eq_true_eq] at h1
      exact (hto.nums c' (List.mem_of_mem_filter hc') fun h => h1.2 ((hcol _).mpr h)).2 row
        (List.mem_of_mem_filter hrow))
    generalize hlines : pivotRows _ _ _ = lines at hperm ⊢
    have hkeep : ∀ l ∈ lines, List.Forall₂ (fun c x => Index.keeps x c = true) l.1 xs := by
      intro l hl
      have := hperm.mem_iff.mp hl
      obtain ⟨row, hrow, rfl⟩ := List.mem_map.mp this
      simp only [List.map_map, List.forall₂_map_left_iff, List.forall₂_same]
      have hall := List.of_mem_filter hrow
      exact fun z hz => List.all_eq_true.mp hall z hz
    have hrows : lines ≠ [] ↔ ∃ row ∈ tableRows s r y.kind, Matches s ((.network, g) :: cs) row := by
      constructor
      · intro h
        obtain ⟨l, hl⟩ := List.exists_mem_of_ne_nil _ h
        obtain ⟨row, hrow, _⟩ := List.mem_map.mp (hperm.mem_iff.mp hl)
        obtain ⟨h1, h2⟩ := List.mem_filter.mp hrow
        exact ⟨row, h1, (keeps_iff (tableRows_grid h1) hF hkc hbg).mp h2⟩
      · rintro ⟨row, hrow, hmatch⟩ h0
        rw [h0] at hperm
        have := hperm.symm.eq_nil
        simp only [List.map_eq_nil_iff] at this
        have hmem : row ∈ (tableRows s r y.kind).filter fun row =>
            xs.all fun x => x.keeps (Row.at row x.kind.column) :=
          List.mem_filter.mpr ⟨hrow, (keeps_iff (tableRows_grid hrow) hF hkc hbg).mpr hmatch⟩
        rw [this] at hmem
        cases hmem
    clear hlines hperm hmask hu
    by_cases hg0 : g = .tuple []
    · subst hg0
      obtain ⟨x, xs', hx, _, rfl⟩ := List.forall₂_cons_left_iff.mp hF
      cases hx
      constructor
      · intro h
        cases h
        exact .network hcv rfl
      · intro h
        cases h with
        | converters h1 h2 => exact absurd h2 (hcv h1)
        | network _ _ => rfl
        | one _ _ _ _ => rfl
    · by_cases hl : lines = []
      · subst hl
        obtain ⟨x, xs', hx, hF', rfl⟩ := List.forall₂_cons_left_iff.mp hF
        obtain ⟨pt', e'⟩ := removeUseless_lineless (xs := xs') (x := x) (pt := ⟨(x :: xs').map fun x => x.kind.column, []⟩) rfl (by
          intro h1 h2
          cases g with
          | none => cases hx; cases h1
          | list l =>
            cases hx
            simp only at h2
            subst h2
            cases h1
          | tuple l => cases hx; exact hg0 (congrArg _ h2)
          | one c => cases hx; cases h2
          | slice a b c => exact hg a b c rfl)
        rw [e']
        constructor
        · intro h; cases h
        · intro h
          cases h with
          | converters h1 h2 => exact absurd h2 (hcv h1)
          | network _ h => exact absurd h hg0
          | one _ row h1 h2 => exact absurd rfl (hrows.mpr ⟨row, h1, h2⟩)
      · have hval : ∀ z ∈ xs, z.isAlone = true → z.values ≠ [] := by
          intro z hz hza hv
          obtain ⟨l, hl⟩ := List.exists_mem_of_ne_nil _ hl
          obtain ⟨c, _, hc⟩ := forall₂_mem_right (hkeep l hl) hz
          unfold Index.isAlone at hza
          simp only [Bool.and_eq_true, Bool.not_eq_true'] at hza
          simp [Index.keeps, hza.1, hv] at hc
        by_cases hal : ∀ x ∈ xs, x.isAlone = true
        · rw [removeUseless_alone (by exact hl) hal hkeep]
          obtain ⟨row, h1, h2⟩ := hrows.mp hl
          have hsing : ∀ c ∈ (IndexKind.network, g) :: cs, Single c.2 := by
            intro c hc
            obtain ⟨z, hz, hmz⟩ := Forall₂.exists_left hF hc
            obtain ⟨k, l, e⟩ := List.exists_cons_of_ne_nil (hval z hz (hal z hz))
            exact (Index.make_alone hmz (fun a b d e => hbg c.1 a b d (by rw [← e]; exact hc)) (hal z hz) e).1
          constructor
          · intro h
            cases h
            exact .one hsing row h1 h2
          · intro h
            cases h with
            | converters h1 h2 => exact absurd h2 (hcv h1)
            | network _ h => exact absurd h hg0
            | one _ _ _ _ => rfl
        · obtain ⟨pt', e'⟩ := removeUseless_total (xs := xs) ⟨xs.map fun x => x.kind.column, lines⟩ (by
            by_contra h
            refine hal fun x hx => ?_
            by_contra h'
            exact h ⟨x, hx, by simpa using h'⟩) hval
          rw [e']
          constructor
          · intro h; cases h
          · intro h
            cases h with
            | converters h1 h2 => exact absurd h2 (hcv h1)
            | network _ h => exact absurd h hg0
            | one h _ _ _ =>
              refine absurd ?_ hal
              intro x hx
              obtain ⟨c, hc, hmz⟩ := forall₂_mem_right hF hx
              exact Index.single_alone hmz (h c hc)
  · obtain ⟨hkk, h0⟩ : (kind = .srcConv ∨ kind = .destConv) ∧ s.converters = [] := by
      by_contra h
      exact hcv fun h1 h2 => h ⟨h1, h2⟩
    have hno : ¬ (a.tableOf kind).Has "t" := by
      obtain ⟨_, _, _, _, _, _, h5', h6'⟩ := init_ok ha
      obtain ⟨hcc, hs⟩ := destConverter_ok h6'
      rcases hkk with rfl | rfl
      · obtain ⟨f, e1, _, _, e3, _⟩ := srcConverter_lists hb hm junk hcc
          (by intro p hp; rw [h0] at hp; cases hp)
        cases h5'.symm.trans e1
        unfold Frame.Has
        simp only [Analyzer.tableOf, e3 h0]; decide
      · obtain ⟨f, e1, _, _, e3, _⟩ := destConverter_lists hb hm junk hcc hs
        cases h6'.symm.trans e1
        unfold Frame.Has
        simp only [Analyzer.tableOf, e3 h0]; decide
    unfold Frame.query
    rw [if_neg]
    · constructor
      · intro h
        cases h
        exact .converters hkk h0
      · intro h
        cases h with
        | converters _ _ => rfl
        | network h1 _ => exact absurd h0 (h1 hkk)
        | one _ row h1 _ =>
          exfalso
          rcases hkk with rfl | rfl <;> simp [tableRows, sources, h0] at h1
    · intro hall
      obtain ⟨z, hz, e⟩ := dims_all h5 hn 2 (by omega)
      have := hall z hz
      rw [← dim_inj (k := .time) e.symm rfl] at this
      exact hno this

end Hadar
