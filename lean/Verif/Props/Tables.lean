import Verif.Proofs.TablesUnique

/-!
# C31 - C36: the tables of the analyzer
-/

namespace Hadar.Props

open Hadar Spec

/-- C31: the consumption table has the rows of all consumptions, scenarios and times -/
theorem C31 {s : Study} {r : Result} (hb : Built s) (hm : Mirrors s r) (junk : Junk) :
    ∃ f, Tables.consumption junk s r = .ok f ∧ f.rows = tableRows s r .cons := by
  obtain ⟨f, h1, h2, _, h4⟩ := consumption_lists hb hm junk
  refine ⟨f, h1, ?_⟩
  rw [h4.rows h2]
  simp only [tableRows, grid_eq]

/-- C31: exactly one row for each network, node, name, scenario and time -/
theorem C31_unique {s : Study} (hb : Built s) (r : Result) :
    ((tableRows s r .cons).map (identity .cons)).Nodup := tableRows_nodup (Built.inv hb) r _

/-- C32: the production table has the rows of all productions, scenarios and times -/
theorem C32 {s : Study} {r : Result} (hb : Built s) (hm : Mirrors s r) (junk : Junk) :
    ∃ f, Tables.production junk s r = .ok f ∧ f.rows = tableRows s r .prod := by
  obtain ⟨f, h1, h2, _, h4⟩ := production_lists hb hm junk
  refine ⟨f, h1, ?_⟩
  rw [h4.rows h2]
  simp only [tableRows, grid_eq]

/-- C32: exactly one row for each network, node, name, scenario and time -/
theorem C32_unique {s : Study} (hb : Built s) (r : Result) :
    ((tableRows s r .prod).map (identity .prod)).Nodup := tableRows_nodup (Built.inv hb) r _

/-- C33: the link table has the rows of all links, scenarios and times -/
theorem C33 {s : Study} {r : Result} (hb : Built s) (hm : Mirrors s r) (junk : Junk) :
    ∃ f, Tables.link junk s r = .ok f ∧ f.rows = tableRows s r .link := by
  obtain ⟨f, h1, h2, _, h4⟩ := link_lists hb hm junk
  refine ⟨f, h1, ?_⟩
  rw [h4.rows h2]
  simp only [tableRows, grid_eq]

/-- C33: exactly one row for each network, node, destination, scenario and time -/
theorem C33_unique {s : Study} (hb : Built s) (r : Result) :
    ((tableRows s r .link).map (identity .link)).Nodup := tableRows_nodup (Built.inv hb) r _

/-- C34 (partial): the storage table is exact if the study has one storage at most. Missing: with more
storages the claim is false, see `C34_refuted`. -/
theorem C34_partial {s : Study} {r : Result} (hb : Built s) (hm : Mirrors s r) (junk : Junk)
    (h1s : storageCount s ≤ 1) :
    ∃ f, Tables.storage junk s r = .ok f ∧ f.rows = tableRows s r .stor := by
  obtain ⟨f, h1, h2, _, h4⟩ := storage_lists hb hm junk h1s
  refine ⟨f, h1, ?_⟩
  rw [h4.rows h2]
  simp only [tableRows, grid_eq]

/-- C35 (partial): the rows that have a time are exactly those of all converters, scenarios and times,
if every converter has a destination and a source. Missing: the table also has rows without time when
a converter has several sources, see `C35_refuted`. -/
theorem C35_partial {s : Study} {r : Result} (hb : Built s) (hm : Mirrors s r) (junk : Junk)
    (hc : CompleteConverters s) (h1 : ∀ p ∈ s.converters, p.2.srcRatios ≠ []) :
    ∃ f, Tables.destConverter junk s r = .ok f ∧
      f.rows.filter (fun row => decide (Row.at row "t" ≠ .nan)) = tableRows s r .destConv := by
  have hlen : s.converters.length ≤ Tables.countSources s := by
    unfold Tables.countSources
    generalize s.converters = cs at h1
    induction cs with
    | nil => simp
    | cons p cs ih =>
      have := ih fun q hq => h1 q (List.mem_cons_of_mem _ hq)
      have h0 : 0 < p.2.srcRatios.length := List.length_pos_iff.mpr (h1 p List.mem_cons_self)
      simp only [List.map_cons, List.sum_cons, List.length_cons]
      omega
  obtain ⟨f, e1, e2, e3, e4, e5⟩ := destConverter_lists hb hm junk hc (Nat.mul_le_mul_right _ hlen)
  refine ⟨f, e1, ?_⟩
  by_cases h0 : s.converters = []
  · have : f.rows = [] := by
      unfold Frame.rows
      rw [e2]
      simp [Tables.countSources, h0]
    rw [this, tableRows, h0]; rfl
  · have hhas : ∀ i, Row.at (f.row i) "t" = f.cell "t" i := by
      intro i
      unfold Row.at Frame.row
      rw [e3 h0]
      simp [Tables.destNames, Dict.get?]
    have hsplit : f.size = s.converters.length * (s.nbScn * s.horizon) +
        (f.size - s.converters.length * (s.nbScn * s.horizon)) := by have := e5.size; omega
    have hfirst : ((List.range (s.converters.length * (s.nbScn * s.horizon))).map f.row) =
        tableRows s r .destConv := by
      have hl : Frame.Lists ⟨s.converters.length * (s.nbScn * s.horizon), f.names, f.cell⟩ s.nbScn
          s.horizon s.converters (destRow r) := ⟨le_refl _, e5.row, fun i h h' => by
            simp only at h'; omega⟩
      have := hl.rows rfl
      simp only [tableRows, grid_eq]
      rw [← this]; rfl
    unfold Frame.rows
    rw [hsplit, List.range_add, List.map_append, List.filter_append, hfirst]
    have ha : (tableRows s r .destConv).filter (fun row => decide (Row.at row "t" ≠ .nan)) =
        tableRows s r .destConv := by
      rw [List.filter_eq_self]
      intro row hrow
      simp only [tableRows, grid, List.mem_flatMap, List.mem_map] at hrow
      obtain ⟨p, _, k, _, t, _, rfl⟩ := hrow
      simp [Row.at, destRow, Dict.get?]
    have hb' : (((List.range (f.size - s.converters.length * (s.nbScn * s.horizon))).map
        (s.converters.length * (s.nbScn * s.horizon) + ·)).map f.row).filter
        (fun row => decide (Row.at row "t" ≠ .nan)) = [] := by
      rw [List.filter_eq_nil_iff]
      intro row hrow
      simp only [List.mem_map, List.mem_range] at hrow
      obtain ⟨_, ⟨i, hi, rfl⟩, rfl⟩ := hrow
      rw [hhas, e5.rest _ (by omega) (by omega)]
      simp
    rw [ha, hb', List.append_nil]

/-- C35 (partial): the table is exact if every converter has a destination and one source. -/
theorem C35_one_partial {s : Study} {r : Result} (hb : Built s) (hm : Mirrors s r) (junk : Junk)
    (hc : CompleteConverters s) (h1 : ∀ p ∈ s.converters, p.2.srcRatios.length = 1) :
    ∃ f, Tables.destConverter junk s r = .ok f ∧ f.rows = tableRows s r .destConv := by
  have hlen : Tables.countSources s = s.converters.length := by
    unfold Tables.countSources
    generalize s.converters = cs at h1
    induction cs with
    | nil => rfl
    | cons p cs ih =>
      rw [List.map_cons, List.sum_cons, ih fun q hq => h1 q (List.mem_cons_of_mem _ hq),
        h1 p List.mem_cons_self, List.length_cons, Nat.add_comm]
  obtain ⟨f, e1, e2, _, _, e5⟩ := destConverter_lists hb hm junk hc (by rw [hlen])
  refine ⟨f, e1, ?_⟩
  rw [e5.rows (by rw [e2, hlen])]
  simp only [tableRows, grid_eq]

/-- C35: exactly one row for each converter, scenario and time -/
theorem C35_unique {s : Study} (hb : Built s) (r : Result) :
    ((tableRows s r .destConv).map (identity .destConv)).Nodup := tableRows_nodup (Built.inv hb) r _

/-- C36 (partial): the table of intakes is exact if every converter has a destination and one source,
whatever the ratios. Missing: with more sources the claim is false, see `C36_refuted` and
`C36_raises_refuted`. -/
theorem C36_partial {s : Study} {r : Result} (hb : Built s) (hm : Mirrors s r) (junk : Junk)
    (hc : CompleteConverters s)
    (h1 : ∀ p ∈ s.converters, p.2.srcRatios.length = 1) :
    ∃ f, Tables.srcConverter junk s r = .ok f ∧ f.rows = tableRows s r .srcConv := by
  obtain ⟨f, e1, e2, _, _, e5⟩ := srcConverter_lists hb hm junk hc h1
  refine ⟨f, e1, ?_⟩
  rw [e5.rows e2]
  simp only [tableRows, grid_eq]

/-- C36: exactly one row for each converter, source, scenario and time -/
theorem C36_unique {s : Study} (hb : Built s) (r : Result) :
    ((tableRows s r .srcConv).map (identity .srcConv)).Nodup := tableRows_nodup (Built.inv hb) r _

/-! ### A concrete case -/

def anCalls : List Call :=
  [.studyNetwork "elec", .netNode 0 "a",
   .nodeConsumption 0 "load" (.num 100) (.array ⟨[2, 2], [10, 11, 12, 13], rfl⟩),
   .nodeProduction 0 "nuke" (.num 20) (.array ⟨[2], [15, 16], rfl⟩),
   .netNode 0 "b", .nodeConsumption 0 "load" (.num 100) (.array ⟨[2, 1], [6, 7], rfl⟩),
   .nodeStorage 0 ⟨"cell", .num 8, .num 2, .num 2, .num 1, 5, .num (9/10)⟩,
   .netLink 0 "a" "b" (.num 1) (.num 4),
   .studyNetwork "gas", .netNode 1 "g", .nodeProduction 1 "well" (.num 1) (.num 10),
   .nodeToConverter 1 "conv" (.num (1/2)),
   .nodeConverter 1 "conv" "elec" "b" (.num 3) (.num 2)]

/-- horizon 2, 2 scenarios, 2 networks, a storage, a link and a converter -/
def anStudy : Study := ((World.start 2 2).run anCalls).study

/-- some values for the variables of the solver -/
def anVals : Vals := fun k v => match v with
  | .lol t .. => t
  | .prod t .. => 3 + k + t
  | .cap t .. => 5 + t
  | .fin t .. => t
  | .fout t .. => k
  | .link t .. => 2 * t + k
  | .convSrc t .. => 2 * t
  | .convDest t .. => t

def anResult : Result := resultAll anStudy anVals ⟨[], [], 0, 0⟩

theorem rawCalls_of {cs : List Call} (h : cs.all (fun c => c.raws.all fun r => match r with
    | .val _ => false
    | _ => true) = true) : ∀ c ∈ cs, RawCall c := by
  intro c hc
  have := List.all_eq_true.mp (List.all_eq_true.mp h c hc)
  have h' : ∀ r ∈ c.raws, ∀ v, r ≠ .val v := by
    rintro r hr v rfl
    exact absurd (this _ hr) (by simp)
  cases c <;> simp_all [RawCall, Call.raws]

theorem anStudy_built : Built anStudy := ⟨2, 2, anCalls, rawCalls_of (by decide +kernel), rfl⟩

theorem anResult_mirrors : Mirrors anStudy anResult := mirrors_result (Built.inv anStudy_built) _ _

example : ∃ f, Tables.consumption (fun _ _ _ => .nan) anStudy anResult = .ok f ∧
    f.rows = tableRows anStudy anResult .cons ∧ f.rows.length = 8 := by
  obtain ⟨f, h1, h2⟩ := C31 anStudy_built anResult_mirrors (fun _ _ _ => .nan)
  exact ⟨f, h1, h2, by rw [h2]; decide +kernel⟩

example : (tableRows anStudy anResult .cons)[6]? = some
    [("cost", .num 100), ("asked", .num 7), ("given", .num 7), ("name", .str "load"),
     ("node", .str "b"), ("network", .str "elec"), ("t", .num 0), ("scn", .num 1)] := by decide +kernel

example : (tableRows anStudy anResult .prod)[3]? = some
    [("cost", .num 20), ("avail", .num 16), ("used", .num 5), ("name", .str "nuke"),
     ("node", .str "a"), ("network", .str "elec"), ("t", .num 1), ("scn", .num 1)] := by decide +kernel

theorem anStudy_complete : CompleteConverters anStudy := by unfold CompleteConverters; decide +kernel

theorem anStudy_ratios : RatiosNonzero anStudy := by unfold RatiosNonzero; decide +kernel

example : storageCount anStudy ≤ 1 := by decide +kernel

theorem anStudy_one : ∀ p ∈ anStudy.converters, p.2.srcRatios.length = 1 := by decide +kernel

example : ∃ f, Tables.srcConverter (fun _ _ _ => .nan) anStudy anResult = .ok f ∧
    f.rows[3]? = some [("name", .str "conv"), ("network", .str "gas"), ("node", .str "g"),
      ("ratio", .num (1/2)), ("flow", .num 2), ("max", .num 6), ("t", .num 1), ("scn", .num 1)] := by
  obtain ⟨f, h1, h2⟩ := C36_partial anStudy_built anResult_mirrors (fun _ _ _ => .nan)
    anStudy_complete anStudy_one
  exact ⟨f, h1, by rw [h2]; decide +kernel⟩

/-! ### Refutations -/

/-- rows of a table that was built -/
def rowsOf (f : Except PyErr Frame) : List Row :=
  match f with
  | .ok f => f.rows
  | .error _ => []

def twoStorCalls : List Call :=
  [.studyNetwork "n", .netNode 0 "a",
   .nodeStorage 0 ⟨"s1", .num 10, .num 1, .num 1, .num 0, 0, .num 1⟩, .netNode 0 "b",
   .nodeStorage 0 ⟨"s2", .num 10, .num 1, .num 1, .num 0, 0, .num 1⟩]

/-- two nodes with a storage each -/
def twoStor : Study := ((World.start 1 1).run twoStorCalls).study

theorem twoStor_built : Built twoStor := ⟨1, 1, twoStorCalls, rawCalls_of (by decide +kernel), rfl⟩

/-- C34 refuted: with two storages, the first one is not in the table -/
theorem C34_refuted : ∃ s r junk f, Built s ∧ Mirrors s r ∧ Tables.storage junk s r = .ok f ∧
    (∃ row ∈ tableRows s r .stor, Row.at row "name" = .str "s1") ∧
    ∀ row ∈ f.rows, Row.at row "name" ≠ .str "s1" := by
  refine ⟨twoStor, resultAll twoStor (fun _ _ => 0) ⟨[], [], 0, 0⟩, fun _ _ _ => .nan, ?_⟩
  have h : ∀ row ∈ rowsOf (Tables.storage (fun _ _ _ => .nan) twoStor
      (resultAll twoStor (fun _ _ => 0) ⟨[], [], 0, 0⟩)), Row.at row "name" ≠ .str "s1" := by
    decide +kernel
  have hne : rowsOf (Tables.storage (fun _ _ _ => .nan) twoStor
      (resultAll twoStor (fun _ _ => 0) ⟨[], [], 0, 0⟩)) ≠ [] := by decide +kernel
  cases hf : Tables.storage (fun _ _ _ => .nan) twoStor
      (resultAll twoStor (fun _ _ => 0) ⟨[], [], 0, 0⟩) with
  | error e => rw [hf] at hne; exact absurd rfl hne
  | ok f =>
    rw [hf] at h
    exact ⟨f, twoStor_built, mirrors_result (Built.inv twoStor_built) _ _, rfl, by decide +kernel, h⟩

def twoSrcCalls : List Call :=
  [.studyNetwork "n", .netNode 0 "a", .netNode 0 "b", .studyNetwork "g", .netNode 1 "x",
   .netNode 1 "y", .nodeToConverter 1 "conv" (.num 2), .nodeNode 1 "x",
   .nodeToConverter 1 "conv" (.num 3), .nodeConverter 1 "conv" "n" "a" (.num 3) (.num 2)]

/-- a converter with two sources, two scenarios -/
def twoSrc : Study := ((World.start 1 2).run twoSrcCalls).study

theorem twoSrc_built : Built twoSrc := ⟨1, 2, twoSrcCalls, rawCalls_of (by decide +kernel), rfl⟩

/-- C35 refuted: a converter with two sources has rows without time -/
theorem C35_refuted : ∃ s r junk f, Built s ∧ Mirrors s r ∧ CompleteConverters s ∧ RatiosNonzero s ∧
    Tables.destConverter junk s r = .ok f ∧ f.rows.length = 4 ∧
    (tableRows s r .destConv).length = 2 := by
  refine ⟨twoSrc, resultAll twoSrc (fun _ _ => 0) ⟨[], [], 0, 0⟩, fun _ _ _ => .nan, ?_⟩
  have h : (rowsOf (Tables.destConverter (fun _ _ _ => .nan) twoSrc
      (resultAll twoSrc (fun _ _ => 0) ⟨[], [], 0, 0⟩))).length = 4 := by
    decide +kernel
  cases hf : Tables.destConverter (fun _ _ _ => .nan) twoSrc
      (resultAll twoSrc (fun _ _ => 0) ⟨[], [], 0, 0⟩) with
  | error e => rw [hf] at h; exact absurd h (by simp [rowsOf])
  | ok f =>
    rw [hf] at h
    exact ⟨f, twoSrc_built, mirrors_result (Built.inv twoSrc_built) _ _,
      by unfold CompleteConverters; decide +kernel, by unfold RatiosNonzero; decide +kernel, rfl, h,
      by decide +kernel⟩

/-- C36 refuted: with two sources and two scenarios, the intake from a source is reported twice for
scenario 0, and never for scenario 1 -/
theorem C36_refuted : ∃ s r junk f, Built s ∧ Mirrors s r ∧ CompleteConverters s ∧ RatiosNonzero s ∧
    Tables.srcConverter junk s r = .ok f ∧
    (∃ row ∈ tableRows s r .srcConv, Row.at row "node" = .str "y" ∧ Row.at row "scn" = .num 1) ∧
    ¬ ∃ row ∈ f.rows, Row.at row "node" = .str "y" ∧ Row.at row "scn" = .num 1 := by
  refine ⟨twoSrc, resultAll twoSrc (fun _ _ => 0) ⟨[], [], 0, 0⟩, fun _ _ _ => .nan, ?_⟩
  have h : ¬ ∃ row ∈ rowsOf (Tables.srcConverter (fun _ _ _ => .nan) twoSrc
      (resultAll twoSrc (fun _ _ => 0) ⟨[], [], 0, 0⟩)),
      Row.at row "node" = .str "y" ∧ Row.at row "scn" = .num 1 := by
    decide +kernel
  have hne : rowsOf (Tables.srcConverter (fun _ _ _ => .nan) twoSrc
      (resultAll twoSrc (fun _ _ => 0) ⟨[], [], 0, 0⟩)) ≠ [] := by decide +kernel
  cases hf : Tables.srcConverter (fun _ _ _ => .nan) twoSrc
      (resultAll twoSrc (fun _ _ => 0) ⟨[], [], 0, 0⟩) with
  | error e => rw [hf] at hne; exact absurd rfl hne
  | ok f =>
    rw [hf] at h
    exact ⟨f, twoSrc_built, mirrors_result (Built.inv twoSrc_built) _ _,
      by unfold CompleteConverters; decide +kernel, by unfold RatiosNonzero; decide +kernel, rfl,
      by decide +kernel, h⟩

def threeSrcCalls : List Call :=
  [.studyNetwork "n", .netNode 0 "a", .studyNetwork "g", .netNode 1 "x",
   .nodeToConverter 1 "conv" (.num 2), .nodeNode 1 "y",
   .nodeToConverter 1 "conv" (.num 3), .nodeNode 1 "z", .nodeToConverter 1 "conv" (.num 4),
   .nodeConverter 1 "conv" "n" "a" (.num 3) (.num 2)]

/-- a converter with three sources -/
def threeSrc : Study := ((World.start 2 1).run threeSrcCalls).study

theorem threeSrc_built : Built threeSrc := ⟨2, 1, threeSrcCalls, rawCalls_of (by decide +kernel), rfl⟩

/-- C36 refuted: no analyzer can be made for a study with a converter with three sources -/
theorem C36_raises_refuted : ∃ s r, Built s ∧ Mirrors s r ∧ CompleteConverters s ∧ RatiosNonzero s ∧
    ∃ junk, Tables.srcConverter junk s r = .error .valueError ∧
      Analyzer.init junk s r = .error .valueError := by
  refine ⟨threeSrc, resultAll threeSrc (fun _ _ => 0) ⟨[], [], 0, 0⟩, threeSrc_built,
    mirrors_result (Built.inv threeSrc_built) _ _, by unfold CompleteConverters; decide +kernel,
    by unfold RatiosNonzero; decide +kernel, fun _ _ _ => .nan, ?_, ?_⟩
  · have : (match Tables.srcConverter (fun _ _ _ => .nan) threeSrc
        (resultAll threeSrc (fun _ _ => 0) ⟨[], [], 0, 0⟩) with
      | .error .valueError => true
      | _ => false) = true := by decide +kernel
    split at this
    · assumption
    · cases this
  · have : (match Analyzer.init (fun _ _ _ => .nan) threeSrc
        (resultAll threeSrc (fun _ _ => 0) ⟨[], [], 0, 0⟩) with
      | .error .valueError => true
      | _ => false) = true := by decide +kernel
    split at this
    · assumption
    · cases this

def nilRatioCalls : List Call :=
  [.studyNetwork "n", .netNode 0 "a", .studyNetwork "g", .netNode 1 "x",
   .nodeToConverter 1 "conv" (.array ⟨[3], [0, 2, 0], rfl⟩),
   .nodeConverter 1 "conv" "n" "a" (.array ⟨[3], [3, 4, 0], rfl⟩) (.num 3)]

/-- a converter with a ratio of zero at two time steps, at one of which its maximum is zero too -/
def nilRatio : Study := ((World.start 3 1).run nilRatioCalls).study

theorem nilRatio_built : Built nilRatio := ⟨3, 1, nilRatioCalls, rawCalls_of (by decide +kernel), rfl⟩

/-- the bounds of the intakes are then infinite, and NaN -/
example : ∃ f, Tables.srcConverter (fun _ _ _ => .nan) nilRatio
      (resultAll nilRatio (fun _ _ => 0) ⟨[], [], 0, 0⟩) = .ok f ∧
    f.rows.map (fun row => Row.at row "max") = [.inf false, .num 2, .nan] := by
  obtain ⟨f, h1, h2⟩ := C36_partial nilRatio_built
    (mirrors_result (Built.inv nilRatio_built) (fun _ _ => 0) ⟨[], [], 0, 0⟩) (fun _ _ _ => .nan)
    (by unfold CompleteConverters; decide +kernel) (by decide +kernel)
  exact ⟨f, h1, by rw [h2]; decide +kernel⟩

/-! ### The theorems applied to concrete cases -/

example := C31_unique anStudy_built anResult
example := C32 anStudy_built anResult_mirrors fun _ _ _ => .nan
example := C32_unique anStudy_built anResult
example := C33 anStudy_built anResult_mirrors fun _ _ _ => .nan
example := C33_unique anStudy_built anResult
example := C34_partial anStudy_built anResult_mirrors (fun _ _ _ => .nan) (by decide +kernel)
example := C35_partial anStudy_built anResult_mirrors (fun _ _ _ => .nan) (by unfold CompleteConverters; decide +kernel) (by decide +kernel)
example := C35_one_partial anStudy_built anResult_mirrors (fun _ _ _ => .nan) (by unfold CompleteConverters; decide +kernel)
  (by decide +kernel)
example := C35_unique anStudy_built anResult

end Hadar.Props
