import Verif.Proofs.Resume
import Verif.Props.Declare
import Verif.Props.Json

/-!
# C138: a study can be saved half way and completed later
-/

namespace Hadar.Props

open Hadar Spec World

/-- the study that is read, beside the one that was written -/
theorem beside_read (w : World) : Beside (w.study.converters.map Prod.fst) w.heap ⟨filled w.study, []⟩ w where
  study := by
    refine ⟨rfl, rfl, rfl, rfl, ?_, fun k hk => hk⟩
    refine List.map_congr_left fun p hp => ?_
    rw [if_pos (List.mem_map_of_mem hp)]
    rfl
  heap := by simp

theorem eq_filledOn {K : List String} {s t : Study} (h : Alike' K s t) : s = filledOn K t := by
  obtain ⟨v, ns, cs, h', n⟩ := s
  obtain ⟨v', ns', cs', h'', n'⟩ := t
  obtain ⟨h1, h2, h3, h4, h5, -⟩ := h
  simp only at h1 h2 h3 h4 h5
  subst h1 h2 h3 h4 h5
  rfl

theorem filledOn_of_complete (K : List String) {s : Study} (h : CompleteConverters s) : filledOn K s = s := by
  have : (s.converters.map fun p => (p.1, if p.1 ∈ K then { p.2 with
      cost := filledField s.horizon s.nbScn p.2.cost
      max := filledField s.horizon s.nbScn p.2.max } else p.2)) = s.converters := by
    conv_rhs => rw [← List.map_id s.converters]
    refine List.map_congr_left fun p hp => ?_
    obtain ⟨h1, h2⟩ := h p hp
    obtain ⟨k, n, sr, g, d, c, m⟩ := p
    cases c with
    | int0 => exact absurd rfl h1
    | val v =>
      cases m with
      | int0 => exact absurd rfl h2
      | val m => simp [filledField]
  unfold filledOn
  rw [this]

/-- a call with raw data is one in a longer program too -/
theorem rawCall_later {m : ℕ} {c : Call} (h : RawCall c) : RawCall (later m c) := by
  cases c <;> exact h

/-- C138 (partial): the first part `p` of a program makes a study, which is written to a file; another program reads it and goes on with the
second part `q`. Each call of `q` then returns or raises as in the whole program, the study at the end is that of the
whole program, with the zeros of the converters of the first part as series if they still have no destination: hence the same if all
converters have one by then. Missing: sources of converters whose names contain `::` or other texts
that a file does not keep (`C138_refuted`), studies without scenario. -/
theorem C138_partial {h n : ℕ} (hn : 0 < n) {p : List Call} (hp : ∀ c ∈ p, RawCall c)
    (hc : CleanSources ((World.start h n).run p).study) (q : List Call) :
    ∃ s m, (Study.fromJson ((World.start h n).run p).study.toJson).1 = .ok s ∧
      outcomes ((World.start h n).run p) (q.map (later m)) =
        (outcomes ⟨s, []⟩ q).map (Except.map (Handle.later m)) ∧
      ((⟨s, []⟩ : World).run q).study =
        filledOn (s.converters.map Prod.fst) ((World.start h n).run (p ++ q.map (later m))).study ∧
      (CompleteConverters ((World.start h n).run (p ++ q.map (later m))).study →
        ((⟨s, []⟩ : World).run q).study = ((World.start h n).run (p ++ q.map (later m))).study) := by
  have hb := beside_read ((World.start h n).run p)
  have hr : ((World.start h n).run (p ++ q.map (later ((World.start h n).run p).heap.length))) =
      ((World.start h n).run p).run (q.map (later ((World.start h n).run p).heap.length)) := by
    unfold World.run
    rw [List.foldl_append]
  have he := eq_filledOn (run_beside hb q).study
  have hk : (filled ((World.start h n).run p).study).converters.map Prod.fst = ((World.start h n).run p).study.converters.map Prod.fst := by
    unfold filled
    rw [List.map_map]; rfl
  refine ⟨_, ((World.start h n).run p).heap.length, C14_roundtrip_partial h n p hn hp hc, outcomes_beside hb q, ?_, ?_⟩
  · rw [hr, hk]
    exact he
  · intro hd
    rw [hr] at hd ⊢
    rw [he]
    exact filledOn_of_complete _ hd

/-! ### What the resumed program makes -/

/-- what is declared on a study that makes sense makes sense -/
theorem wellFormed_run {s : Study} (hs : WellFormed s) {q : List Call} (hq : ∀ c ∈ q, RawCall c) :
    WellFormed ((⟨s, []⟩ : World).run q).study := by
  have hi : WorldInv ⟨s, []⟩ := ⟨⟨hs.names, hs.links, hs.converters⟩, by intro _ hm; cases hm⟩
  have hi' := World.WorldInv.run hi q
  have hx := run_ext hi q
  have hk : Checked ((⟨s, []⟩ : World).run q).study := checked_run q ⟨fun p hp a ha => hs.checks p.1 a.1 a.2 ⟨p.2, hp, ha⟩, hs.fields⟩
  refine ⟨hx.version.trans hs.version, hi'.study.names, hi'.study.links, hi'.study.convs, ?_, ?_, hk.fields⟩
  · rw [hx.horizon, hx.nbScn]
    exact run_all hi hs.series q hq fun r v hr hv => fits_create hr hv
  · rintro g d n ⟨net, h1, h2⟩
    exact hk.nodes _ h1 _ h2

/-- C138: a study that makes sense (C134), read from a file that anybody wrote, can be completed: what comes out could have been
declared by one program, which is all the theorems on declared studies and their solutions ask for -/
theorem C138_built {s : Study} (hs : WellFormed s) {q : List Call} (hq : ∀ c ∈ q, RawCall c) : Built ((⟨s, []⟩ : World).run q).study ∧
      (CompleteConverters ((⟨s, []⟩ : World).run q).study → RatiosUsable ((⟨s, []⟩ : World).run q).study →
        CleanSources ((⟨s, []⟩ : World).run q).study → Ready ((⟨s, []⟩ : World).run q).study) := by
  have := wellFormed_run hs hq
  exact ⟨(C134 _).mpr this, fun h1 h2 h3 => C134_ready this h1 h2 h3⟩

/-- C138: nothing that was in the file is lost, altered or moved by what follows (C09 is about a study declared from the start) -/
theorem C138_kept {s : Study} (hs : WellFormed s) (q : List Call) : StudyExt s ((⟨s, []⟩ : World).run q).study :=
  run_ext (w := ⟨s, []⟩) ⟨⟨hs.names, hs.links, hs.converters⟩, by intro _ hm; cases hm⟩ q

/-! ### Refuted -/

/-- the first part of a program: a node whose name has the separator of the file feeds a converter -/
def sepFirst : List Call := [.studyNetwork "elec", .netNode 0 "a::b", .nodeToConverter 0 "conv" (.num 1)]

/-- the second part: the same source again -/
def sepSecond : List Call := [.studyNetwork "elec", .netNode 0 "a::b", .nodeToConverter 0 "conv" (.num 1)]

/-- what the file says -/
def sepRead : Study :=
  match (Study.fromJson ((World.start 1 1).run sepFirst).study.toJson).1 with
  | .ok s => s
  | .error _ => Study.init 0 0 none

theorem sepRead_read : (Study.fromJson ((World.start 1 1).run sepFirst).study.toJson).1 = .ok sepRead := by decide +kernel

/-- C138 fails with such names: the second part is refused in one program, and accepted when the study is read again -/
theorem C138_refuted : ∃ p q s m, (∀ c ∈ p, RawCall c) ∧ (Study.fromJson ((World.start 1 1).run p).study.toJson).1 = .ok s ∧
    ((World.start 1 1).run p).heap.length = m ∧
    outcomes ((World.start 1 1).run p) (q.map (later m)) = [.ok (.net 1), .ok (.node 1), .error .valueError] ∧
    outcomes ⟨s, []⟩ q = [.ok (.net 0), .ok (.node 0), .ok (.node 0)] :=
  ⟨sepFirst, sepSecond, sepRead, 1, rawCalls_of (by decide +kernel), sepRead_read, by decide +kernel, by decide +kernel, by decide +kernel⟩

/-! ### A study saved half way -/

/-- the first part: a gas node feeds a converter that goes nowhere yet -/
def halfFirst : List Call := [.studyNetwork "gas", .netNode 0 "g", .nodeProduction 0 "well" (.num 1) (.num 10),
  .nodeToConverter 0 "turbine" (.num (1/2))]

/-- the second part: a load, where the converter goes; and one call that is refused, as the well is there already -/
def halfSecond : List Call := [.studyNetwork "elec", .netNode 0 "e", .nodeConsumption 0 "load" (.num 100) (.num 3),
  .netConverter 0 "turbine" "elec" "e" (.num 5) (.num 0), .studyNetwork "gas", .netNode 2 "g", .nodeProduction 2 "well" (.num 1) (.num 10)]

theorem half_clean : CleanSources ((World.start 2 1).run halfFirst).study := cleanSources_of (by decide +kernel)

/-- what the file says -/
def halfRead : Study :=
  match (Study.fromJson ((World.start 2 1).run halfFirst).study.toJson).1 with
  | .ok s => s
  | .error _ => Study.init 0 0 none

theorem halfRead_read : (Study.fromJson ((World.start 2 1).run halfFirst).study.toJson).1 = .ok halfRead := by decide +kernel

theorem halfRead_outcomes : outcomes ⟨halfRead, []⟩ halfSecond =
    [.ok (.net 0), .ok (.node 0), .ok (.node 0), .ok (.net 1), .ok (.net 2), .ok (.node 2), .error .valueError] := by decide +kernel

theorem half_differs : halfRead ≠ ((World.start 2 1).run halfFirst).study := by decide +kernel

theorem half_complete : CompleteConverters ((World.start 2 1).run (halfFirst ++ halfSecond.map (later 1))).study := by
  unfold CompleteConverters; decide +kernel

example : ∃ s m, (Study.fromJson ((World.start 2 1).run halfFirst).study.toJson).1 = .ok s ∧
    outcomes ((World.start 2 1).run halfFirst) (halfSecond.map (later m)) = (outcomes ⟨s, []⟩ halfSecond).map (Except.map (Handle.later m)) ∧
    ((⟨s, []⟩ : World).run halfSecond).study =
      filledOn (s.converters.map Prod.fst) ((World.start 2 1).run (halfFirst ++ halfSecond.map (later m))).study ∧
    (CompleteConverters ((World.start 2 1).run (halfFirst ++ halfSecond.map (later m))).study →
      ((⟨s, []⟩ : World).run halfSecond).study = ((World.start 2 1).run (halfFirst ++ halfSecond.map (later m))).study) :=
  C138_partial (by decide) (rawCalls_of (by decide +kernel)) half_clean halfSecond

/-- the completed study is the one of the whole program, though the half read differed from the half written -/
example : ((⟨halfRead, []⟩ : World).run halfSecond).study = ((World.start 2 1).run (halfFirst ++ halfSecond.map (later 1))).study := by
  decide +kernel

theorem half_wellFormed : WellFormed ((World.start 2 1).run halfFirst).study :=
  (C134 _).mp ⟨2, 1, halfFirst, rawCalls_of (by decide +kernel), rfl⟩

example : Built ((⟨((World.start 2 1).run halfFirst).study, []⟩ : World).run halfSecond).study :=
  (C138_built half_wellFormed (rawCalls_of (by decide +kernel))).1

example : StudyExt ((World.start 2 1).run halfFirst).study ((⟨((World.start 2 1).run halfFirst).study, []⟩ : World).run halfSecond).study :=
  C138_kept half_wellFormed halfSecond

end Hadar.Props
