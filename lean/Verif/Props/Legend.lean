import Verif.Proofs.Legend
import Verif.Props.ViewerStack
import Std.Data.String.ToInt

/-! # C115: names and colours of stack charts and timelines -/

namespace Hadar.Props

open Hadar Hadar.Spec

variable {junk : Junk} {s : Study} {r : Result} {a : Analyzer}

/-- C115 (partial): in the stack chart of a node there is one band per production, storage and converter that brings
energy, one line per consumption, storage and converter that takes energy, with their names, plus a band `import` if
the node imports more than it exports at some time step, and a line `export` if it does the reverse. Two lines have the
same colour if and only if the number of lines between them says so (every ten). Missing: as in
`C60_bands_partial`. -/
theorem C115_partial (hb : Built s) (hm : Mirrors s r) (ha : Analyzer.init junk s r = .ok a) {g d : String}
    {n : InputNode} (hn : HasNode s g d n) (h1s : n.storages ≠ [] → storageCount s ≤ 1)
    (hsrc : (∃ p ∈ s.converters, [g, d] ∈ p.2.srcRatios.map Prod.fst) →
      RatiosUsable s ∧ ∀ p ∈ s.converters, p.2.srcRatios.length = 1)
    {k : ℕ} (hk : k < s.nbScn) (hh : 0 < s.horizon) {srt : Viewer.SortValues} (hs : Descending srt)
    {pk ck : String} (hpk : pk = "used" ∨ pk = "avail") (hck : ck = "given" ∨ ck = "asked") :
    ∃ traces, Viewer.stackDrawn a srt g d (k : ℤ) pk ck = .ok traces ∧
      LegendOf (bandNames s g d n) (lineNames s g d n) (∃ t < s.horizon, balanceOf s r g d n k t < 0)
        (∃ t < s.horizon, 0 < balanceOf s r g d n k t) traces := by
  obtain ⟨chart, P, O, A, I, C, S, D, X, e, hA, hP, hO, hAr, hI, hL, hC, hS, hD, hX⟩ :=
    C60_bands_partial hb hm ha hn h1s hsrc hk hh hs hpk hck
  have n1 := names_drawn hA (ranked_names hP) (ranked_names hO) (bandsOf_names hAr)
  have n2 := names_drawn hL (ranked_names hC) (ranked_names hS) (bandsOf_names hD)
  rw [List.map_reverse] at n2
  replace n2 := (List.reverse_perm _).symm.trans n2
  have b1 : (productionBands s r g d n pk k).map Prod.fst ++ (outflowBands s r g d n k).map Prod.fst ++
      (arrivalBands s r g d k).map Prod.fst = bandNames s g d n := by
    unfold bandNames productionBands outflowBands arrivalBands
    rw [zipIdx_names n.productions (·.name), zipIdx_names n.storages (·.name), List.map_map]
    rfl
  have b2 : (consumptionBands s r g d n ck k).map Prod.fst ++ (inflowBands s r g d n k).map Prod.fst ++
      (departureBands s r g d k).map Prod.fst = lineNames s g d n := by
    unfold lineNames consumptionBands inflowBands departureBands
    rw [zipIdx_names n.consumptions (·.name), zipIdx_names n.storages (·.name), List.map_map]
    rfl
  rw [b1] at n1
  rw [b2] at n2
  have hIm : ((∃ t < s.horizon, balanceOf s r g d n k t < 0) → I.map Prod.fst = [Cell.str "import"]) ∧
      (¬ (∃ t < s.horizon, balanceOf s r g d n k t < 0) → I.map Prod.fst = []) := by
    constructor
    · rintro ⟨t, ht, h⟩
      rcases hI with ⟨h0, -⟩ | ⟨-, rfl⟩
      · exact absurd (h0 t ht) (ne_of_gt (lt_max_of_lt_right (by linarith)))
      · rfl
    · intro h
      rcases hI with ⟨-, rfl⟩ | ⟨⟨t, ht, h0⟩, -⟩
      · rfl
      · refine absurd (max_eq_left ?_) h0
        by_contra h1
        exact h ⟨t, ht, by linarith⟩
  have hEx : ((∃ t < s.horizon, 0 < balanceOf s r g d n k t) → X.map Prod.fst = [Cell.str "export"]) ∧
      (¬ (∃ t < s.horizon, 0 < balanceOf s r g d n k t) → X.map Prod.fst = []) := by
    constructor
    · rintro ⟨t, ht, h⟩
      rcases hX with ⟨h0, -⟩ | ⟨-, rfl⟩
      · exact absurd (h0 t ht) (ne_of_gt (lt_max_of_lt_right h))
      · rfl
    · intro h
      rcases hX with ⟨-, rfl⟩ | ⟨⟨t, ht, h0⟩, -⟩
      · rfl
      · refine absurd (max_eq_left ?_) h0
        by_contra h1
        exact h ⟨t, ht, by linarith⟩
  refine ⟨Viewer.stackTraces chart, by unfold Viewer.stackDrawn; rw [e]; rfl, ?_⟩
  constructor
  · rw [filter_bands, bandTrace_names]
    constructor
    · intro h
      rw [hIm.1 h] at n1
      rwa [List.map_append]
    · intro h
      rw [hIm.2 h] at n1
      rwa [List.append_nil] at n1
  · rw [filter_lines, lineTrace_names]
    constructor
    · intro h
      rw [hEx.1 h] at n2
      rwa [List.map_append]
    · intro h
      rw [hEx.2 h] at n2
      rwa [List.append_nil] at n2
  · rw [filter_bands, filter_lines]
    rfl
  · rw [filter_bands]
    intro i x hx
    rw [List.getElem?_map, List.getElem?_zipIdx, Option.map_map, Option.map_eq_some_iff] at hx
    obtain ⟨p, -, rfl⟩ := hx
    simp [Viewer.bandTrace]
  · rw [filter_lines]
    intro x hx
    obtain ⟨p, -, rfl⟩ := List.mem_map.mp hx
    exact lineColors_some _ (Nat.mod_lt _ (by omega))
  · rw [filter_lines]
    intro i j x y hx hy
    rw [List.getElem?_map, List.getElem?_zipIdx, Option.map_map, Option.map_eq_some_iff] at hx hy
    obtain ⟨p, -, rfl⟩ := hx
    obtain ⟨q, -, rfl⟩ := hy
    simp only [Function.comp_apply, Viewer.lineTrace, Nat.zero_add]
    constructor
    · exact lineColors_inj _ (Nat.mod_lt _ (by omega)) _ (Nat.mod_lt _ (by omega))
    · intro h; rw [h]

/-- C115: names tell the bands apart, and the lines apart, if no two elements on one side of the node share a name and
none is called `import` or `export` -/
theorem C115_names {bands lines : List String} {im ex : Prop} {traces : List Viewer.Trace}
    (h : LegendOf bands lines im ex traces) :
    ((bands ++ ["import"]).Nodup → ((traces.filter isBand).map (·.name)).Nodup) ∧
    ((lines ++ ["export"]).Nodup → ((traces.filter (!isBand ·)).map (·.name)).Nodup) := by
  have hinj : Function.Injective Cell.str := fun _ _ h => by injection h
  constructor
  · intro hn
    by_cases hi : im
    · exact (h.bandNames.1 hi).nodup_iff.mpr (hn.map hinj)
    · exact (h.bandNames.2 hi).nodup_iff.mpr ((List.nodup_append.mp hn).1.map hinj)
  · intro hn
    by_cases hi : ex
    · exact (h.lineNames.1 hi).nodup_iff.mpr (hn.map hinj)
    · exact (h.lineNames.2 hi).nodup_iff.mpr ((List.nodup_append.mp hn).1.map hinj)

/-- C115: colours tell the lines apart if and only if there are at most ten -/
theorem C115_colours {bands lines : List String} {im ex : Prop} {traces : List Viewer.Trace}
    (h : LegendOf bands lines im ex traces) :
    ((traces.filter (!isBand ·)).map (·.color)).Nodup ↔ (traces.filter (!isBand ·)).length ≤ 10 := by
  have hc := h.colours
  generalize traces.filter (!isBand ·) = l at hc
  rw [List.nodup_iff_getElem?_ne_getElem?]
  constructor
  · intro h
    by_contra h1
    have h2 := h 0 10 (by omega) (by rw [List.length_map]; omega)
    have e1 : l[0]? = some l[0] := List.getElem?_eq_getElem (by omega)
    have e2 : l[10]? = some l[10] := List.getElem?_eq_getElem (by omega)
    rw [List.getElem?_map, List.getElem?_map, e1, e2] at h2
    exact h2 (congrArg some ((hc 0 10 _ _ e1 e2).mpr rfl))
  · intro hl i j hij hj
    rw [List.length_map] at hj
    have e1 : l[i]? = some l[i] := List.getElem?_eq_getElem (by omega)
    have e2 : l[j]? = some l[j] := List.getElem?_eq_getElem hj
    rw [List.getElem?_map, List.getElem?_map, e1, e2]
    intro h
    have := (hc i j _ _ e1 e2).mp (Option.some.inj h)
    omega

/-- C115 (partial): the curves of a timeline are named after their scenarios, in order, no two alike, and all drawn with
the same opacity, from 0.01 to 1. Missing: as in `C68_partial`. -/
theorem C115_timeline_partial (hb : Built s) (hm : Mirrors s r) (ha : Analyzer.init junk s r = .ok a)
    {x : Viewer.Item} {f : ℕ → ℕ → ℚ} (hx : Shows s r x f) (hr : Drawable s x.kind) (hn : 0 < s.nbScn)
    (hh : 0 < s.horizon) :
    ∃ traces, x.timelineDrawn a = .ok traces ∧
      traces.map (·.name) = (List.range s.nbScn).map (fun k => Cell.str ("scn " ++ toString k)) ∧
      (traces.map (·.name)).Nodup ∧ traces.map (·.ys) = (List.range s.nbScn).map (fun k => over s (f k)) ∧
      ∃ o : ℚ, 1 / 100 ≤ o ∧ o ≤ 1 ∧ 1 / (s.nbScn : ℚ) ≤ o ∧ ∀ y ∈ traces, y.opacity = some o := by
  have ht := C68_partial hb hm ha hx hr hn hh
  set o : ℚ := max (1 / 100) (1 / (s.nbScn : ℚ)) with ho
  have hm' : ∀ l : List ℕ, (l.map fun k : ℕ => (Cell.num k, over s (f k))).mapM (Viewer.curveTrace o) =
      .ok (l.map fun k : ℕ => (⟨.str ("scn " ++ toString k), over s (f k), none, none, some o⟩ : Viewer.Trace)) := by
    intro l
    induction l with
    | nil => rfl
    | cons k l ih =>
      rw [List.map_cons, List.mapM_cons, ih]
      simp only [Viewer.curveTrace, Viewer.scnName, cut_nat]
      rfl
  refine ⟨(List.range s.nbScn).map fun k : ℕ => ⟨.str ("scn " ++ toString k), over s (f k), none, none, some o⟩,
    ?_, ?_, ?_, ?_, o, le_max_left _ _, ?_, le_max_right _ _, ?_⟩
  · unfold Viewer.Item.timelineDrawn
    rw [ht]
    show Viewer.timelineTraces _ = _
    unfold Viewer.timelineTraces
    rw [List.length_map, List.length_range, if_neg (by omega), ← ho]
    exact hm' _
  · rw [List.map_map]; rfl
  · rw [List.map_map]
    refine List.nodup_range.map ?_
    intro i j h
    have h1 : "scn " ++ toString i = "scn " ++ toString j := Cell.str.inj h
    have h2 := congrArg String.toList h1
    rw [String.toList_append, String.toList_append] at h2
    have h3 := String.toList_injective (List.append_cancel_left h2)
    exact Int.ofNat.inj (Int.repr_inj.1 (show (i : ℤ).repr = (j : ℤ).repr from h3))
  · rw [List.map_map]; rfl
  · refine max_le (by norm_num) ?_
    rw [div_le_one (by exact_mod_cast hn)]
    exact_mod_cast hn
  · intro y hy
    obtain ⟨k, -, rfl⟩ := List.mem_map.mp hy
    rfl

/-! ### Concrete cases -/

/-- node `b` has a production, a consumption, a storage, an import and a converter that brings energy -/
theorem anLegend : ∃ traces, Viewer.stackDrawn anAnalyzer highestFirst "elec" "b" (1 : ℕ) "used" "given" = .ok traces ∧
    LegendOf (bandNames anStudy "elec" "b" (inNode anStudy "elec" "b"))
      (lineNames anStudy "elec" "b" (inNode anStudy "elec" "b"))
      (∃ t < anStudy.horizon, balanceOf anStudy anResult "elec" "b" (inNode anStudy "elec" "b") 1 t < 0)
      (∃ t < anStudy.horizon, 0 < balanceOf anStudy anResult "elec" "b" (inNode anStudy "elec" "b") 1 t) traces :=
  C115_partial anStudy_built anResult_mirrors anAnalyzer_init anNode_b (fun _ => by decide +kernel)
    (fun _ => ⟨RatiosNonzero.usable anStudy_ratios, by decide +kernel⟩) (k := 1) (by decide +kernel)
    (by decide +kernel) highestFirst_descending (.inl rfl) (.inl rfl)

example : (bandNames anStudy "elec" "b" (inNode anStudy "elec" "b") ++ ["import"]).Nodup ∧
    (lineNames anStudy "elec" "b" (inNode anStudy "elec" "b") ++ ["export"]).Nodup := by decide +kernel

example : ∃ traces, Viewer.stackDrawn anAnalyzer highestFirst "elec" "b" (1 : ℕ) "used" "given" = .ok traces ∧
    ((traces.filter isBand).map (·.name)).Nodup ∧ ((traces.filter (!isBand ·)).map (·.name)).Nodup := by
  obtain ⟨traces, h1, h2⟩ := anLegend
  exact ⟨traces, h1, (C115_names h2).1 (by decide +kernel), (C115_names h2).2 (by decide +kernel)⟩

example : ∃ traces, Viewer.stackDrawn anAnalyzer highestFirst "elec" "b" (1 : ℕ) "used" "given" = .ok traces ∧
    (((traces.filter (!isBand ·)).map (·.color)).Nodup ↔ (traces.filter (!isBand ·)).length ≤ 10) := by
  obtain ⟨traces, h1, h2⟩ := anLegend
  exact ⟨traces, h1, C115_colours h2⟩

example : ∃ traces, Viewer.Item.timelineDrawn anAnalyzer ⟨"elec", "b", .cons, "load", "given"⟩ = .ok traces ∧
    traces.map (·.name) = [.str "scn 0", .str "scn 1"] := by
  obtain ⟨traces, h1, h2, -⟩ := C115_timeline_partial anStudy_built anResult_mirrors anAnalyzer_init anLoad
    ⟨⟨by simp, by simp⟩, by simp⟩ (by decide +kernel) (by decide +kernel)
  exact ⟨traces, h1, h2.trans (by decide +kernel)⟩

/-- a production called `import` on a node that imports -/
def nameCalls : List Call :=
  [.studyNetwork "n", .netNode 0 "a", .nodeProduction 0 "import" (.num 1) (.num 1),
   .nodeConsumption 0 "load" (.num 100) (.num 3), .netNode 0 "b",
   .nodeProduction 0 "sun" (.num 1) (.num 2), .netLink 0 "b" "a" (.num 0) (.num 2)]

def nameStudy : Study := ((World.start 1 1).run nameCalls).study

theorem nameStudy_ready : Ready nameStudy where
  built := ⟨1, 1, nameCalls, rawCalls_of (by decide +kernel), rfl⟩
  complete := by unfold CompleteConverters; decide +kernel
  ratios := RatiosNonzero.usable (by unfold RatiosNonzero; decide +kernel)
  clean := cleanSources_of (by decide +kernel)

def nameAnswer : Var → ℚ
  | .prod _ _ d .. => if d = "a" then 1 else 2
  | .link .. => 2
  | _ => 0

theorem nameAnswer_feasible : Answers (fun _ => nameAnswer) nameStudy 0 Cmd.Feasible := by
  intro steps log h
  obtain rfl := logOf_eq h
  exact Cmd.feasible_of_check (by decide +kernel)

/-- C115 refuted: two bands of a stack chart are called `import` -/
theorem C115_refuted : ∃ s solver b r junk a traces, Ready s ∧ NoSelfLink s ∧ storageCount s = 0 ∧
    s.converters = [] ∧ solveLp solver b s = .ok r ∧ Analyzer.init junk s r = .ok a ∧
    Answers solver s 0 Cmd.Feasible ∧ (∃ n, HasNode s "n" "a" n) ∧
    Viewer.stackDrawn a highestFirst "n" "a" 0 "used" "given" = .ok traces ∧
    (traces.filter isBand).map (·.name) = [.str "import", .str "import"] := by
  have hr := Ready.solve nameStudy_ready (fun _ => nameAnswer) ⟨[], [], 0, 0⟩
  have h : charted nameStudy (fun _ => nameAnswer) (fun a =>
      Viewer.stackDrawn a highestFirst "n" "a" 0 "used" "given") =
      .ok [⟨.str "import", [1], some "tozeroy", none, none⟩, ⟨.str "import", [3], some "tonexty", none, none⟩,
        ⟨.str "load", [3], none, some "brown", none⟩] := by
    decide +kernel
  rcases charted_cases h with ⟨e, _, h1⟩ | ⟨a, h1, h2⟩
  · cases h1
  · exact ⟨nameStudy, _, _, _, _, a, _, nameStudy_ready, noSelfLink_of (by decide +kernel), by decide +kernel,
      by decide +kernel, hr, h1, nameAnswer_feasible, ⟨_, hasNode_inNode (by decide +kernel)⟩, h2, rfl⟩

/-- eleven consumptions on a node -/
def crowdCalls : List Call :=
  [.studyNetwork "n", .netNode 0 "a", .nodeProduction 0 "sun" (.num 1) (.num 11)] ++
    ["c0", "c1", "c2", "c3", "c4", "c5", "c6", "c7", "c8", "c9", "c10"].map fun x =>
      .nodeConsumption 0 x (.num 100) (.num 1)

def crowdStudy : Study := ((World.start 1 1).run crowdCalls).study

theorem crowdStudy_ready : Ready crowdStudy where
  built := ⟨1, 1, crowdCalls, rawCalls_of (by decide +kernel), rfl⟩
  complete := by unfold CompleteConverters; decide +kernel
  ratios := RatiosNonzero.usable (by unfold RatiosNonzero; decide +kernel)
  clean := cleanSources_of (by decide +kernel)

def crowdAnswer : Var → ℚ
  | .prod .. => 11
  | _ => 0

theorem crowdAnswer_feasible : Answers (fun _ => crowdAnswer) crowdStudy 0 Cmd.Feasible := by
  intro steps log h
  obtain rfl := logOf_eq h
  exact Cmd.feasible_of_check (by decide +kernel)

/-- C115 refuted: two lines of a stack chart have the same colour -/
theorem C115_colours_refuted : ∃ s solver b r junk a traces, Ready s ∧ NoSelfLink s ∧ storageCount s = 0 ∧
    s.converters = [] ∧ solveLp solver b s = .ok r ∧ Analyzer.init junk s r = .ok a ∧
    Answers solver s 0 Cmd.Feasible ∧ (∃ n, HasNode s "n" "a" n) ∧
    Viewer.stackDrawn a highestFirst "n" "a" 0 "used" "given" = .ok traces ∧
    ¬ ((traces.filter (!isBand ·)).map (·.color)).Nodup := by
  have hr := Ready.solve crowdStudy_ready (fun _ => crowdAnswer) ⟨[], [], 0, 0⟩
  have h : (match charted crowdStudy (fun _ => crowdAnswer) (fun a =>
      Viewer.stackDrawn a highestFirst "n" "a" 0 "used" "given") with
      | .ok traces => decide (¬ ((traces.filter (!isBand ·)).map (·.color)).Nodup)
      | .error _ => false) = true := by
    decide +kernel
  cases h0 : charted crowdStudy (fun _ => crowdAnswer) (fun a =>
      Viewer.stackDrawn a highestFirst "n" "a" 0 "used" "given") with
  | error e => rw [h0] at h; cases h
  | ok traces =>
    rw [h0] at h
    rcases charted_cases h0 with ⟨e, _, h1⟩ | ⟨a, h1, h2⟩
    · cases h1
    · exact ⟨crowdStudy, _, _, _, _, a, traces, crowdStudy_ready, noSelfLink_of (by decide +kernel),
        by decide +kernel, by decide +kernel, hr, h1, crowdAnswer_feasible, ⟨_, hasNode_inNode (by decide +kernel)⟩,
        h2, of_decide_eq_true h⟩

end Hadar.Props
