import Verif.Proofs.Json
import Verif.Props.Study

/-! # Properties of serialisation (C14 - C17) -/

namespace Hadar.Props

open Hadar Spec World

/-! ### C14: study round trip -/

/-- C14 (full claim): every study built through the API is read back equal. The code violates it
(`C14_refuted_incomplete`, `C14_refuted_separator`). -/
def C14_claim : Prop := ∀ (h n : ℕ) (cs : List Call),
  (Study.fromJson ((start h n).run cs).study.toJson).1 = .ok ((start h n).run cs).study

/-- C14: every study built through the API from numbers, lists and arrays, with at least one
scenario and with converter sources that the separator does not confuse, is read back equal, except
that a converter without destination gets the series `0` instead of the integer `0` as cost and
max. What is missing: names with the separator, zero scenarios, values given as ready made
`NumericalValue` objects. -/
theorem C14_roundtrip_partial (h n : ℕ) (cs : List Call) (hn : 0 < n)
    (hraw : ∀ c ∈ cs, RawCall c) (hc : CleanSources ((start h n).run cs).study) :
    (Study.fromJson ((start h n).run cs).study.toJson).1 =
      .ok (filled ((start h n).run cs).study) := by
  have hi := reachable_inv h n cs
  have hx := run_ext (worldInv_start h n) cs
  refine Study.roundtrip hi.study ?_ ?_ hc
  · rw [hx.horizon, hx.nbScn]
    refine run_all (worldInv_start h n) ?_ cs hraw ?_
    · refine ⟨?_, ?_⟩
      · rintro g d x ⟨net, hm, _⟩; simp [start, Study.init] at hm
      · intro p hp; simp [start, Study.init] at hp
    · intro r v hr hv
      exact Factory.canon_of_create hn hr hv
  · rw [hx.version]
    simp [start, Study.init, Study.hadarVersion]

/-- C14: when in addition every converter has a destination the study read is equal. -/
theorem C14_roundtrip_complete_partial (h n : ℕ) (cs : List Call) (hn : 0 < n)
    (hraw : ∀ c ∈ cs, RawCall c) (hc : CleanSources ((start h n).run cs).study)
    (hd : CompleteConverters ((start h n).run cs).study) :
    (Study.fromJson ((start h n).run cs).study.toJson).1 = .ok ((start h n).run cs).study := by
  rw [C14_roundtrip_partial h n cs hn hraw hc, filled_of_complete hd]

/-- C14 refuted: `to_converter` alone leaves a converter without destination; its cost and max are
the integer `0` before and the series `0` after. -/
theorem C14_refuted_incomplete : ¬ C14_claim := by
  intro h
  have := h 1 1 [.studyNetwork "elec", .netNode 0 "a", .nodeToConverter 0 "conv" (.num 1)]
  revert this
  decide +kernel

/-- C14 refuted even for complete converters: with a node called `a::b` the source of the converter
read back is `("elec", "a", "b")`, not `("elec", "a::b")`. -/
theorem C14_refuted_separator : ∃ cs : List Call, (∀ c ∈ cs, RawCall c) ∧
    CompleteConverters ((start 1 1).run cs).study ∧
    (Study.fromJson ((start 1 1).run cs).study.toJson).1 ≠ .ok ((start 1 1).run cs).study := by
  refine ⟨[.studyNetwork "elec", .netNode 0 "a::b", .nodeToConverter 0 "conv" (.num 1),
    .nodeConverter 0 "conv" "elec" "a::b" (.num 1) (.num 1)], ?_, ?_, ?_⟩
  · intro c hc
    simp only [List.mem_cons, List.not_mem_nil, or_false] at hc
    rcases hc with rfl | rfl | rfl | rfl <;> simp [RawCall]
  · unfold CompleteConverters
    decide +kernel
  · decide +kernel

/-- the hypotheses of the two theorems, on a study with consumptions, productions, a storage, a link
and a converter -/
theorem demo_sources : CleanSources ((start 2 1).run demoCalls).study ∧
    CompleteConverters ((start 2 1).run demoCalls).study := by
  have e : ((start 2 1).run demoCalls).study.converters =
    [("conv", ⟨"conv", [(["gas", "a"], ⟨.scalar (1/2), 2, 1⟩)], "elec", "b",
      .val ⟨.scalar 3, 2, 1⟩, .val ⟨.scalar 100, 2, 1⟩⟩)] := by decide +kernel
  refine ⟨?_, ?_⟩
  · intro p hp g d hk
    rw [e] at hp
    simp only [List.mem_singleton] at hp
    subst hp
    simp at hk
    obtain ⟨rfl, rfl⟩ := hk
    exact cleanPair_of_split (by decide +kernel)
  · unfold CompleteConverters
    rw [e]; decide

/-! ### C15: composite keys -/

/-- C15 (full claim): every source is recovered from its key and keys are not shared. Violated
(`C15_refuted`). -/
def C15_claim : Prop :=
  (∀ g d, splitKey (joinKey [g, d]) = [g, d]) ∧
    ∀ g d g' d', joinKey [g, d] = joinKey [g', d'] → g = g' ∧ d = d'

/-- C15: a source is recovered from its key exactly when the separator occurs neither in the network
name nor in the node name, and the network name does not end with a colon. What is missing from the
claim: the other names. -/
theorem C15_recovered_partial (g d : String) :
    splitKey (joinKey [g, d]) = [g, d] ↔ CleanPair g d :=
  ⟨cleanPair_of_split, splitKey_joinKey⟩

/-- C15: two different sources with such names do not share a key. -/
theorem C15_distinct_partial (g d g' d' : String) (h : CleanPair g d) (h' : CleanPair g' d')
    (e : joinKey [g, d] = joinKey [g', d']) : g = g' ∧ d = d' := by
  have := splitKey_joinKey h
  rw [e, splitKey_joinKey h'] at this
  simp at this
  exact ⟨this.1.symm, this.2.symm⟩

/-- C15: neither half holds for all names. -/
theorem C15_refuted : (∃ g d, splitKey (joinKey [g, d]) ≠ [g, d]) ∧
    ∃ g d g' d', (g, d) ≠ (g', d') ∧ joinKey [g, d] = joinKey [g', d'] :=
  ⟨⟨"elec:", "a", by decide +kernel⟩, ⟨"a::b", "c", "a", "b::c", by decide, by decide +kernel⟩⟩

theorem colon_clean : CleanPair "elec" "a:b" := cleanPair_of_split (by decide +kernel)

/-! ### C16: result round trip -/

/-- C16: a result is read back equal when its arrays have at least one scenario and its converter
sources have names that the separator does not confuse. What is missing from the claim: the other
names. -/
theorem C16_roundtrip_partial (r : Result) (h : ResultOk r) :
    (Result.fromJson r.toJson).1 = .ok r := Result.roundtrip h

/-- a result with one converter, whose source node is called `node` -/
def demoResult (node : String) : Result :=
  ⟨[("elec", ⟨[("a", ⟨[⟨⟨[1, 2], [1, 2], rfl⟩, "load"⟩], [⟨"gas", ⟨[1, 2], [1, 2], rfl⟩⟩], [], []⟩)]⟩)],
    [("conv", ⟨"conv", [(["elec", node], ⟨[1, 2], [3, 4], rfl⟩)], ⟨[1, 2], [5, 6], rfl⟩⟩)],
    ⟨[1], [2], 3, 4⟩⟩

/-- C16 refuted for all names -/
theorem C16_refuted :
    (Result.fromJson (demoResult "a::b").toJson).1 ≠ .ok (demoResult "a::b") := by
  decide +kernel

theorem demoResult_ok : ResultOk (demoResult "a") := by
  have hc : CleanPair "elec" "a" := cleanPair_of_split (by decide +kernel)
  refine ⟨by simp [demoResult], by simp [demoResult], ?_, by simp [demoResult],
    by simp [demoResult], ?_, by simp [demoResult, Dense]⟩
  · intro p hp q hq
    simp only [demoResult, List.mem_singleton] at hp
    subst hp
    simp only [List.mem_singleton] at hq
    subst hq
    exact ⟨by simp [Dense], by simp [Dense], by simp, by simp⟩
  · intro p hp k hk
    simp only [demoResult, List.mem_singleton] at hp
    subst hp
    simp at hk
    exact ⟨_, _, hk, hc⟩

/-! ### C17: reading does not consume -/

/-- C17 (full claim): reading a study or a result leaves the decoded object as it was. Violated for
results (`C17_refuted`). -/
def C17_claim : Prop := (∀ j : Json, (Study.fromJson j).2 = j) ∧
  ∀ r : Result, ResultOk r → (Result.fromJson r.toJson).2 = r.toJson

/-- C17, the study half: whatever the object (well formed or not), reading a study leaves it
unchanged. What is missing: results. -/
theorem C17_study_partial (j : Json) : (Study.fromJson j).2 = j := rfl

/-- C17, the study half: reading twice gives the same answer. -/
theorem C17_study_twice_partial (j : Json) :
    (Study.fromJson (Study.fromJson j).2).1 = (Study.fromJson j).1 := rfl

/-- the underlying decoder does modify its argument: the deep copy is what protects the caller -/
example : ∃ j, (Study.fromJsonCopy j).2 ≠ j := by
  refine ⟨((start 2 1).run [.studyNetwork "elec", .netNode 0 "a"]).study.toJson, ?_⟩
  intro h
  have := congrArg (fun j => (Study.fromJsonCopy j).1.toBool) h
  revert this
  decide +kernel

/-- C17 refuted for results: the first reading succeeds, the second one of the same object raises. -/
theorem C17_refuted : (Result.fromJson (demoResult "a").toJson).1 = .ok (demoResult "a") ∧
    (Result.fromJson (Result.fromJson (demoResult "a").toJson).2).1 = .error .typeError ∧
    (Result.fromJson (demoResult "a").toJson).2 ≠ (demoResult "a").toJson := by
  have h1 : (Result.fromJson (demoResult "a").toJson).1 = .ok (demoResult "a") := by decide +kernel
  have h2 : (Result.fromJson (Result.fromJson (demoResult "a").toJson).2).1 =
      .error .typeError := by decide +kernel
  refine ⟨h1, h2, fun h => ?_⟩
  rw [h, h1] at h2
  cases h2

/-! ### The theorems applied to concrete cases -/

example := C14_roundtrip_partial 2 1 demoCalls (by decide) demoCalls_raw demo_sources.1

example := C15_distinct_partial "elec" "a:b" "elec" "a:b" colon_clean colon_clean rfl

end Hadar.Props
