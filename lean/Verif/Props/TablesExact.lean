import Verif.Proofs.TablesExact
import Verif.Props.Accept

/-!
# C34, C36: what the tables of storages and of intakes are in all cases; C79: what the analyzer accepts
-/

namespace Hadar.Props

open Hadar Spec

/-- C34: the storage table in all cases: the rows of the last storage, then for each other storage rows left as
they were allocated. Each storage is right only if there is one. -/
theorem C34_exact {s : Study} {r : Result} (hb : Built s) (hm : Mirrors s r) (junk : Junk) :
    ∃ f, Tables.storage junk s r = .ok f ∧ f.rows = match (elements s (·.storages)).getLast? with
      | none => []
      | some e => grid s (storageRow r e) ++ (List.range ((storageCount s - 1) * (s.nbScn * s.horizon))).map fun i =>
          Tables.storageNames.map fun c => (c.1, junk "storage" c.1 (s.nbScn * s.horizon + i)) := by
  obtain ⟨f, h1, h2, h3, h4, h5⟩ := storage_exact hb hm junk
  refine ⟨f, h1, ?_⟩
  unfold Frame.rows
  rw [h3]
  cases hl : (elements s (·.storages)).getLast? with
  | none =>
    rw [List.getLast?_eq_none_iff] at hl
    simp [hl]
  | some e =>
    have hpos : 0 < (elements s (·.storages)).length := by
      rw [List.length_pos_iff]; rintro h; rw [h] at hl; cases hl
    have e1 : (elements s (·.storages)).length * (s.nbScn * s.horizon) =
        s.nbScn * s.horizon + (storageCount s - 1) * (s.nbScn * s.horizon) := by
      unfold storageCount
      obtain ⟨c, hc⟩ := Nat.exists_eq_add_of_lt hpos
      rw [hc, Nat.zero_add, Nat.add_sub_cancel]
      ring
    rw [e1, List.range_add, List.map_append, List.map_map]
    simp only
    congr 1
    · rw [range_mul, List.map_map, grid_eq]
      refine List.map_congr_left ?_
      intro p hp
      obtain ⟨hk, ht⟩ := mem_pairs.mp hp
      exact h4 e hl _ hk _ ht
    · refine List.map_congr_left ?_
      intro i _
      simp only [Function.comp_apply, Frame.row, h2]
      refine List.map_congr_left ?_
      intro c _
      rw [h5 c.1 _ (by omega)]

/-- C34: the storage table is right, whatever the memory it was allocated in, exactly if there is at most one
storage -/
theorem C34_iff_partial {s : Study} {r : Result} (hb : Built s) (hm : Mirrors s r) (hn : 0 < s.nbScn)
    (hh : 0 < s.horizon) : (∀ junk, ∃ f, Tables.storage junk s r = .ok f ∧ f.rows = tableRows s r .stor) ↔
      storageCount s ≤ 1 := by
  refine ⟨?_, fun h1 junk => C34_partial hb hm junk h1⟩
  intro h
  by_contra h2
  obtain ⟨f, hf, hrows⟩ := h fun _ _ _ => .nan
  obtain ⟨f', hf', hrows'⟩ := C34_exact hb hm (fun _ _ _ => .nan)
  rw [hf] at hf'
  cases hf'
  rw [hrows] at hrows'
  have hlt : 1 < (elements s (·.storages)).length := by unfold storageCount at h2; omega
  cases hl : (elements s (·.storages)).getLast? with
  | none =>
    rw [List.getLast?_eq_none_iff] at hl
    rw [hl] at hlt
    simp at hlt
  | some e =>
    rw [hl] at hrows'
    simp only at hrows'
    have hB : 0 < s.nbScn * s.horizon := Nat.mul_pos hn hh
    have hpos : 0 < (storageCount s - 1) * (s.nbScn * s.horizon) :=
      Nat.mul_pos (by unfold storageCount; omega) hB
    have hget := congrArg (fun l : List Row => l[1 * (s.nbScn * s.horizon) + (0 * s.horizon + 0)]?) hrows'
    simp only [tableRows] at hget
    rw [getElem?_flatMap_block (e := (elements s (·.storages))[1]) (fun e _ => length_grid s _)
      (List.getElem?_eq_getElem hlt) (by simpa using hB), getElem?_grid s _ hn hh,
      List.getElem?_append_right (by rw [length_grid]; omega), length_grid, List.getElem?_map,
      List.getElem?_range (by omega)] at hget
    simp [storageRow, Tables.storageNames] at hget

/-- C36: the table of intakes when the last converter has two sources and the others have one: the flows are right,
but the number of the scenario is `k / 2` for the first source and `(nbScn + k) / 2` for the second one. -/
theorem C36_exact {s : Study} {r : Result} (hb : Built s) (hm : Mirrors s r) (junk : Junk)
    (hc : CompleteConverters s) {ps : List (String × Converter)} {p : String × Converter}
    (hps : s.converters = ps ++ [p]) (h1 : ∀ q ∈ ps, q.2.srcRatios.length = 1) (h2 : p.2.srcRatios.length = 2) :
    ∃ f, Tables.srcConverter junk s r = .ok f ∧ f.rows = (sources s).zipIdx.flatMap fun e => grid s fun k t =>
      Dict.set (sourceRow r e.1 k t) "scn" (.num (if e.2 < ps.length then k
        else ((e.2 - ps.length) * s.nbScn + k) / 2 : ℕ)) := by
  obtain ⟨f, e1, e2, e3⟩ := srcConverter_two hb hm junk hc hps h1 h2
  refine ⟨f, e1, ?_⟩
  rw [e3.rows e2]
  have hl : s.converters.length = ps.length + 1 := by rw [hps]; simp
  simp only [grid_eq, labelOf, hl, Nat.add_lt_add_iff_right, Nat.add_sub_add_right]

theorem set_scn (r : Result) (e : Converter × String × String × String × NumVal) (k t x : ℕ) :
    Dict.set (sourceRow r e k t) "scn" (.num x) = sourceRow r e k t ↔ x = k := by
  simp [sourceRow, Dict.set]

theorem few_cases {s : Study} (hne : ∀ p ∈ s.converters, p.2.srcRatios ≠ []) (hf : FewSources s) :
    (∀ p ∈ s.converters, p.2.srcRatios.length = 1) ∨ ∃ ps p, s.converters = ps ++ [p] ∧
      (∀ q ∈ ps, q.2.srcRatios.length = 1) ∧ p.2.srcRatios.length = 2 := by
  by_cases h0 : s.converters = []
  · left; simp [h0]
  · have hsplit := List.dropLast_append_getLast h0
    have hlast := List.getLast_mem h0
    have h2 := hf.2 _ hlast
    have h1 : 0 < (s.converters.getLast h0).2.srcRatios.length := List.length_pos_iff.mpr (hne _ hlast)
    by_cases h : (s.converters.getLast h0).2.srcRatios.length = 1
    · left
      intro p hp
      rw [← hsplit] at hp
      rcases List.mem_append.mp hp with hp | hp
      · exact hf.1 p hp
      · obtain rfl : p = s.converters.getLast h0 := by simpa using hp
        exact h
    · right
      exact ⟨s.converters.dropLast, s.converters.getLast h0, hsplit.symm, hf.1, by omega⟩

/-- C79: an analyzer can be made of a study and its result, when every converter has a source, exactly if all
converters but the last one have one source, and the last one has at most two. (With one scenario and one time step,
some versions of pandas accept more, see `Frame.assign`.) -/
theorem C79 {s : Study} {r : Result} (hb : Built s) (hm : Mirrors s r) (hc : CompleteConverters s)
    (hne : ∀ p ∈ s.converters, p.2.srcRatios ≠ []) (hpos : 1 < s.nbScn * s.horizon)
    (junk : Junk) : (∃ a, Analyzer.init junk s r = .ok a) ↔ FewSources s := by
  have hi := Built.inv hb
  have hlen : s.converters.length ≤ Tables.countSources s := by
    unfold Tables.countSources
    generalize s.converters = cs at hne
    induction cs with
    | nil => simp
    | cons p cs ih =>
      have := ih fun q hq => hne q (List.mem_cons_of_mem _ hq)
      have h0 : 0 < p.2.srcRatios.length := List.length_pos_iff.mpr (hne p List.mem_cons_self)
      simp only [List.map_cons, List.sum_cons, List.length_cons]
      omega
  obtain ⟨f1, e1, _⟩ := C31 hb hm junk
  obtain ⟨f2, e2, _⟩ := C32 hb hm junk
  obtain ⟨f3, e3, _⟩ := C34_exact hb hm junk
  obtain ⟨f4, e4, _⟩ := C33 hb hm junk
  obtain ⟨f6, e6, _⟩ := destConverter_lists hb hm junk hc (Nat.mul_le_mul_right _ hlen)
  have hiff : (∃ a, Analyzer.init junk s r = .ok a) ↔ ∃ f, Tables.srcConverter junk s r = .ok f := by
    unfold Analyzer.init
    simp only [bind, Except.bind, e1, e2, e3, e4, e6]
    cases Tables.srcConverter junk s r with
    | error e => simp
    | ok f => simp [pure, Except.pure]
  rw [hiff]
  constructor
  · rintro ⟨f, hf⟩
    unfold Tables.srcConverter at hf
    simp only [bind, Except.bind] at hf
    split at hf
    · cases hf
    rename_i f' hf'
    refine srcConvLoop_shape (by rw [Nat.mul_comm]; omega) ?_ hne ?_ hf'
    · intro p hp l hl
      obtain ⟨v, hv, hl'⟩ := convFlatten_ok (hc p hp).2
      rw [hl'] at hl
      cases hl
      rw [((Built.sized hb).2 p hp |>.2.2 v hv).flatten_length, Nat.mul_comm]
    · simp [Tables.countSources]
  · intro hf
    rcases few_cases hne hf with h | ⟨ps, p, h1, h2, h3⟩
    · obtain ⟨f, hf, _⟩ := C36_partial hb hm junk hc h
      exact ⟨f, hf⟩
    · obtain ⟨f, hf, _⟩ := C36_exact hb hm junk hc h1 h2 h3
      exact ⟨f, hf⟩

/-- C36: when it can be built, the table of intakes is right exactly if every converter has one source, or there is
one scenario only. -/
theorem C36_iff_partial {s : Study} {r : Result} (hb : Built s) (hm : Mirrors s r) (hc : CompleteConverters s)
    (hne : ∀ p ∈ s.converters, p.2.srcRatios ≠ []) (hn : 0 < s.nbScn) (hh : 0 < s.horizon)
    (hfew : FewSources s) (junk : Junk) :
    (∃ f, Tables.srcConverter junk s r = .ok f ∧ f.rows = tableRows s r .srcConv) ↔
      (∀ p ∈ s.converters, p.2.srcRatios.length = 1) ∨ s.nbScn = 1 := by
  constructor
  · rintro ⟨f, hf, hrows⟩
    rcases few_cases hne hfew with h | ⟨ps, p, h1, h2, h3⟩
    · exact .inl h
    right
    by_contra h
    obtain ⟨f', hf', hrows'⟩ := C36_exact hb hm junk hc h1 h2 h3
    rw [hf] at hf'
    cases hf'
    rw [hrows] at hrows'
    have hlen : (ps.flatMap sourcesOf).length = ps.length := by
      rw [List.length_flatMap]
      have : ps.map (fun q => (sourcesOf q).length) = ps.map fun _ => 1 :=
        List.map_congr_left fun q hq => by simp [sourcesOf, h2 q hq]
      rw [this]; simp
    have hsl : (sources s).length = ps.length + 2 := by
      rw [sources_append h1, List.length_append, hlen]; simp [sourcesOf, h3]
    have hj : ps.length < (sources s).length := by omega
    have hB : 1 * s.horizon + 0 < s.nbScn * s.horizon := idx_lt (by omega) hh
    have hget := congrArg (fun l : List Row => l[ps.length * (s.nbScn * s.horizon) + (1 * s.horizon + 0)]?) hrows'
    simp only [tableRows] at hget
    rw [getElem?_flatMap_block (fun e _ => length_grid s _) (List.getElem?_eq_getElem hj) hB,
      getElem?_flatMap_block (e := ((sources s)[ps.length], ps.length)) (fun e _ => length_grid s _)
        (by rw [List.getElem?_zipIdx, List.getElem?_eq_getElem hj]; simp) hB,
      getElem?_grid s _ (by omega) hh, getElem?_grid s _ (by omega) hh] at hget
    have := (set_scn _ _ _ _ _).mp (Option.some.inj hget).symm
    simp at this
  · intro h
    by_cases h1 : ∀ p ∈ s.converters, p.2.srcRatios.length = 1
    · exact C36_partial hb hm junk hc h1
    have hs : s.nbScn = 1 := by tauto
    rcases few_cases hne hfew with h | ⟨ps, p, h1, h2, h3⟩
    · exact absurd h h1
    obtain ⟨f, hf, hrows⟩ := C36_exact hb hm junk hc h1 h2 h3
    refine ⟨f, hf, ?_⟩
    rw [hrows]
    have hlen : (ps.flatMap sourcesOf).length = ps.length := by
      rw [List.length_flatMap]
      have : ps.map (fun q => (sourcesOf q).length) = ps.map fun _ => 1 :=
        List.map_congr_left fun q hq => by simp [sourcesOf, h2 q hq]
      rw [this]; simp
    have hsl : (sources s).length = ps.length + 2 := by
      rw [sources_append h1, List.length_append, hlen]; simp [sourcesOf, h3]
    have : ∀ e ∈ (sources s).zipIdx, (grid s fun k t => Dict.set (sourceRow r e.1 k t) "scn"
        (.num (if e.2 < ps.length then k else ((e.2 - ps.length) * s.nbScn + k) / 2 : ℕ))) =
        grid s (sourceRow r e.1) := by
      intro e he
      have he2 : e.2 < (sources s).length := by
        have := List.mem_zipIdx_iff_getElem?.mp he
        exact (List.getElem?_eq_some_iff.mp this).1
      rw [grid_eq, grid_eq]
      refine List.map_congr_left ?_
      intro q hq
      obtain ⟨hk, _⟩ := mem_pairs.mp hq
      rw [set_scn, hs]
      rw [hs] at hk
      split_ifs
      · rfl
      · omega
    rw [List.flatMap_congr this, ← List.flatMap_map (fun e : _ × ℕ => e.1) fun e => grid s (sourceRow r e),
      List.zipIdx_map_fst]
    rfl

/-! ### Concrete cases -/

/-- two storages: the last one is in the table -/
example : ∃ f, Tables.storage (fun _ _ _ => .nan) twoStor (resultAll twoStor (fun _ _ => 0) ⟨[], [], 0, 0⟩) = .ok f ∧
    storageCount twoStor = 2 ∧ (f.rows.map fun row => Row.at row "name") = [.str "s2", .nan] := by
  obtain ⟨f, h1, h2⟩ := C34_exact (r := resultAll twoStor (fun _ _ => 0) ⟨[], [], 0, 0⟩) twoStor_built
    (mirrors_result (Built.inv twoStor_built) _ _) (fun _ _ _ => .nan)
  exact ⟨f, h1, by decide +kernel, by rw [h2]; decide +kernel⟩

theorem twoSrc_complete : CompleteConverters twoSrc := by unfold CompleteConverters; decide +kernel
theorem twoSrc_few : FewSources twoSrc := by unfold FewSources; decide +kernel

/-- two sources, two scenarios: the analyzer can be made, with the rows of a source in one scenario only -/
example : (∃ a, Analyzer.init (fun _ _ _ => .nan) twoSrc (resultAll twoSrc (fun _ _ => 0) ⟨[], [], 0, 0⟩) = .ok a) ∧
    ∃ f, Tables.srcConverter (fun _ _ _ => .nan) twoSrc (resultAll twoSrc (fun _ _ => 0) ⟨[], [], 0, 0⟩) = .ok f ∧
    (f.rows.map fun row => (Row.at row "node", Row.at row "scn")) =
      [(.str "y", .num 0), (.str "y", .num 0), (.str "x", .num 1), (.str "x", .num 1)] := by
  refine ⟨(C79 twoSrc_built (mirrors_result (Built.inv twoSrc_built) _ _) twoSrc_complete
    (by decide +kernel) (by decide +kernel) _).mpr twoSrc_few, ?_⟩
  obtain ⟨f, h1, h2⟩ := C36_exact (r := resultAll twoSrc (fun _ _ => 0) ⟨[], [], 0, 0⟩) twoSrc_built
    (mirrors_result (Built.inv twoSrc_built) _ _) (fun _ _ _ => .nan) twoSrc_complete (ps := [])
    (p := ("conv", (twoSrc.converters.get? "conv").getD ⟨"", [], "", "", .int0, .int0⟩)) (by decide +kernel)
    (by simp) (by decide +kernel)
  exact ⟨f, h1, by rw [h2]; decide +kernel⟩

/-- three sources: no analyzer -/
example (junk : Junk) : ¬ ∃ a, Analyzer.init junk threeSrc (resultAll threeSrc (fun _ _ => 0) ⟨[], [], 0, 0⟩) = .ok a := by
  rw [C79 threeSrc_built (mirrors_result (Built.inv threeSrc_built) _ _)
    (by unfold CompleteConverters; decide +kernel) (by decide +kernel)
    (by decide +kernel)]
  unfold FewSources
  decide +kernel

/-! ### The theorems applied to concrete cases -/

example := C34_iff_partial anStudy_built anResult_mirrors (by decide +kernel) (by decide +kernel)

end Hadar.Props
