import Verif.Proofs.LPAccept
import Verif.Spec.Accept
import Verif.Props.LPExamples
import Verif.Props.Tables

/-!
# C70: what the optimizer accepts, and C18 - C24 for every study it solved

The theorems of `Props/LP.lean` take `Ready` studies. Here this is derived from the fact that `solve_lp` returned.
-/

namespace Hadar.Props

open Hadar Spec

variable {s : Study} {solver : Solver} {b : Benchmark} {r : Result}

theorem ready_of_solved (hb : Built s) (hd : DistinctSources s) (hn : 0 < s.nbScn) (hh : 0 < s.horizon)
    (hr : solveLp solver b s = .ok r) : Ready s := by
  have hi := Built.inv hb
  have hu := Built.usable hb
  unfold solveLp at hr
  simp only [bind, Except.bind] at hr
  split at hr
  · cases hr
  rename_i outs houts
  have hbuild : ∀ k < s.nbScn, ∃ x, buildAll s k = .ok x := by
    intro k hk
    obtain ⟨y, hy⟩ := mapM_ok_each houts k (by simpa using hk)
    unfold solveBatch at hy
    simp only [bind, Except.bind] at hy
    split at hy
    · cases hy
    · rename_i x hx
      exact ⟨x, hx⟩
  have hc : CompleteConverters s := by
    intro p hp
    obtain ⟨x, hx⟩ := hbuild 0 hn
    exact (buildAll_usable hi hu hn hx hp hh).1
  have hz : RatiosUsable s := by
    intro p hp q hq k hk t ht
    obtain ⟨x, hx⟩ := hbuild k hk
    exact (buildAll_usable hi hu hk hx hp ht).2 q hq
  refine ⟨hb, hc, hz, ?_⟩
  rw [mapM_ok (g := fun k => (List.range s.horizon).map fun t =>
      (timeStepOf s k t).received (valsOf solver s k)) fun k hk =>
    solveBatch_ok hi hu hc hz solver (by simpa using hk)] at houts
  cases houts
  obtain ⟨vars, ts, e1, e2, hconv⟩ := mapResults_keys (keysKept_init s b) hr 0 hn 0 hh
  rw [List.getElem?_map, List.getElem?_range hn] at e1
  cases e1
  rw [List.getElem?_map, List.getElem?_range hh] at e2
  cases e2
  apply cleanSources_of
  intro p hp key hkey
  obtain ⟨v, hv, p', hp', hname, hin⟩ := hconv p hp
  obtain rfl : p' = p := by
    have h1 := Dict.get?_of_mem hi.names.converters hp
    have h2 := Dict.get?_of_mem hi.names.converters hp'
    rw [hname, h1] at h2
    exact Prod.ext hname (Option.some.inj h2).symm
  have hv' : ((timeStepOf s 0 0).received (valsOf solver s 0)).converters.get? p'.1 =
      some ((lpConvOf 0 0 p'.2).received (valsOf solver s 0)) := by
    simp only [LPTimeStep.received, timeStepOf, List.map_map, Function.comp_def]
    exact Dict.get?_map_mem (key := fun p : String × Converter => p.1) hi.names.converters hp
  rw [hv'] at hv
  cases hv
  have hw : splitKey (joinKey key) ∈ p'.2.srcRatios.map Prod.fst := by
    have : key ∈ ((lpConvOf 0 0 p'.2).varFlowSrc.map fun p => (p.1, valsOf solver s 0 p.2)).map Prod.fst := by
      simpa [lpConvOf, Function.comp_def] using hkey
    obtain ⟨x, hx, hxe⟩ := List.mem_map.mp (wireKeys_mem this)
    rw [← hxe]
    exact hin x hx
  have hinj := List.inj_on_of_nodup_map (f := joinKey) (l := p'.2.srcRatios.map Prod.fst) (by
    rw [List.map_map]
    exact hd p' hp)
  exact hinj hw hkey (joinKey_splitKey _)

/-- C70: the optimizer accepts a study built through the API exactly when all its converters have been given a
destination, their maximums can be divided by their ratios (`RatiosUsable`), and the names of their sources are not confused by the
separator. -/
theorem C70 (hb : Built s) (hd : DistinctSources s) (hn : 0 < s.nbScn) (hh : 0 < s.horizon) (solver : Solver)
    (b : Benchmark) : (∃ r, solveLp solver b s = .ok r) ↔
      CompleteConverters s ∧ RatiosUsable s ∧ CleanSources s := by
  constructor
  · rintro ⟨r, hr⟩
    have h := ready_of_solved hb hd hn hh hr
    exact ⟨h.complete, h.ratios, h.clean⟩
  · rintro ⟨h1, h2, h3⟩
    exact ⟨_, Ready.solve ⟨hb, h1, h2, h3⟩ solver b⟩

/-- C70: a ratio of zero is accepted when it comes with an array and the maximum is not zero; the converter then gives nothing, and what
it takes from its other sources is also zero where their ratios are not. -/
theorem C70_zero (hb : Built s) (hd : DistinctSources s) (hr : solveLp solver b s = .ok r) {k : ℕ} (hk : k < s.nbScn)
    (ha : Answers solver s k Cmd.Feasible) {p : String × Converter} (hp : p ∈ s.converters) {t : ℕ} (ht : t < s.horizon)
    {g d : String} {v : NumVal} (hv : ([g, d], v) ∈ p.2.srcRatios) (hz : val v k t = 0) :
    fval p.2.max k t ≠ 0 ∧ (GivenAsArray v ∨ ∃ m, p.2.max = .val m ∧ GivenAsArray m) ∧
    (dispatchOf s r k).convDest p.1 t = 0 ∧
    ∀ g' d' w, ([g', d'], w) ∈ p.2.srcRatios → val w k t ≠ 0 → (dispatchOf s r k).convSrc p.1 (g', d') t = 0 := by
  have hs := ready_of_solved hb hd (by omega) (by omega) hr
  have hf := C21_ratios hs hr hk ha
  have h0 : (dispatchOf s r k).convDest p.1 t = 0 := by
    rw [← hf p hp g d v hv t ht, hz, mul_zero]
  refine ⟨(hs.ratios p hp _ hv k hk t ht hz).1, (hs.ratios p hp _ hv k hk t ht hz).2, h0, fun g' d' w hw hne => ?_⟩
  have := hf p hp g' d' w hw t ht
  rw [h0] at this
  exact (mul_eq_zero.mp this).resolve_right hne

/-- C18 for every study that was solved -/
theorem C18_solved_partial (hb : Built s) (hd : DistinctSources s) (hr : solveLp solver b s = .ok r) {k : ℕ}
    (hk : k < s.nbScn) (ha : Answers solver s k Cmd.InBounds) : Bounds s k (dispatchOf s r k) := by
  rcases Nat.eq_zero_or_pos s.horizon with h0 | h0
  · constructor <;> (intros; omega)
  · exact C18_bounds (ready_of_solved hb hd (by omega) h0 hr) hr hk ha

/-- C19 (partial) for every study that was solved, without link from a node to itself (`C19_refuted`) -/
theorem C19_solved_partial (hb : Built s) (hd : DistinctSources s) (hself : NoSelfLink s)
    (hr : solveLp solver b s = .ok r) {k : ℕ} (hk : k < s.nbScn) (ha : Answers solver s k Cmd.Feasible) :
    Balanced s k (dispatchOf s r k) := by
  rcases Nat.eq_zero_or_pos s.horizon with h0 | h0
  · intro g d n _ t ht; omega
  · exact C19_balance_partial (ready_of_solved hb hd (by omega) h0 hr) hself hr hk ha

/-- C20 (partial) for every study that was solved, first storage of each node (`C20_refuted`) -/
theorem C20_solved_partial (hb : Built s) (hd : DistinctSources s) (hr : solveLp solver b s = .ok r) {k : ℕ}
    (hk : k < s.nbScn) (ha : Answers solver s k Cmd.Feasible) {g d : String} {n : InputNode}
    (hn : HasNode s g d n) {c : Storage} (hc : n.storages[0]? = some c) {t : ℕ} (ht : t < s.horizon) :
    Evolves k (dispatchOf s r k) g d 0 c t :=
  C20_first_storage_partial (ready_of_solved hb hd (by omega) (by omega) hr) hr hk ha hn hc ht

/-- C21 for every study that was solved -/
theorem C21_solved_partial (hb : Built s) (hd : DistinctSources s) (hr : solveLp solver b s = .ok r) {k : ℕ}
    (hk : k < s.nbScn) (ha : Answers solver s k Cmd.Feasible) : RatiosOk s k (dispatchOf s r k) := by
  rcases Nat.eq_zero_or_pos s.horizon with h0 | h0
  · intro p _ g d r' _ t ht; omega
  · exact C21_ratios (ready_of_solved hb hd (by omega) h0 hr) hr hk ha

/-- C22 (partial) for every study that was solved, without link from a node to itself and with at most one storage per
node (`C22_refuted`) -/
theorem C22_solved_partial (hb : Built s) (hd : DistinctSources s) (hself : NoSelfLink s) (h1 : OneStorage s)
    (hr : solveLp solver b s = .ok r) {k : ℕ} (hk : k < s.nbScn) (ha : Answers solver s k Cmd.Optimal) :
    Spec.Feasible s k (dispatchOf s r k) ∧
    ∀ D, Spec.Feasible s k D → cost s k (dispatchOf s r k) ≤ cost s k D := by
  rcases Nat.eq_zero_or_pos s.horizon with h0 | h0
  · refine ⟨⟨?_, ?_, ?_, ?_⟩, ?_⟩
    · constructor <;> (intros; omega)
    · intro g d n _ t ht; omega
    · intro g d n _ i c _ t ht; omega
    · intro p _ g d r' _ t ht; omega
    · intro D _
      simp [cost, h0, sumL]
  · exact C22_least_cost_partial (ready_of_solved hb hd (by omega) h0 hr) hself h1 hr hk ha

/-! ### Two sources with the same text -/

def twinCalls : List Call :=
  [.studyNetwork "a", .netNode 0 ":b", .nodeProduction 0 "p" (.num 1) (.num 10),
   .nodeToConverter 0 "conv" (.num 2),
   .studyNetwork "a:", .netNode 1 "b", .nodeProduction 1 "p" (.num 1) (.num 10),
   .nodeToConverter 1 "conv" (.num 1),
   .studyNetwork "z", .netNode 2 "n", .nodeConsumption 2 "load" (.num 100) (.num 4),
   .nodeConverter 2 "conv" "z" "n" (.num 4) (.num 1)]

/-- a converter takes from node `b` of network `a:` and from node `:b` of network `a` -/
def twinStudy : Study := ((World.start 1 1).run twinCalls).study

def twinAnswer : Var → ℚ
  | .prod _ "a:" _ _ => 4
  | .prod _ "a" _ _ => 2
  | .convSrc _ _ ["a:", "b"] => 4
  | .convSrc _ _ ["a", ":b"] => 2
  | .convDest .. => 4
  | _ => 0

theorem twinStudy_built : Built twinStudy := ⟨1, 1, twinCalls, rawCalls_of (by decide +kernel), rfl⟩

theorem twinAnswer_feasible : Answers (fun _ => twinAnswer) twinStudy 0 Cmd.Feasible := by
  intro steps log h
  obtain rfl := logOf_eq h
  exact Cmd.feasible_of_check (by decide +kernel)

/-- C18, C21 refuted: with such names, the answer of the solver is right but the result loses the flow of a source, and
gives it to the other. -/
theorem C21_refuted : ∃ s solver b r, Built s ∧ 0 < s.nbScn ∧ NoSelfLink s ∧ OneStorage s ∧
    Answers solver s 0 Cmd.Feasible ∧ solveLp solver b s = .ok r ∧ ¬ RatiosOk s 0 (dispatchOf s r 0) ∧
    ¬ Balanced s 0 (dispatchOf s r 0) ∧ ¬ Bounds s 0 (dispatchOf s r 0) := by
  obtain ⟨r, hr, h1, h2, h3, h4, h5⟩ : ∃ r, solveLp (fun _ => twinAnswer) ⟨[], [], 0, 0⟩ twinStudy = .ok r ∧
      (dispatchOf twinStudy r 0).convSrc "conv" ("a:", "b") 0 = 0 ∧
      (dispatchOf twinStudy r 0).convSrc "conv" ("a", ":b") 0 = 4 ∧
      (dispatchOf twinStudy r 0).convDest "conv" 0 = 4 ∧
      incoming twinStudy (dispatchOf twinStudy r 0) "a:" "b" (inNode twinStudy "a:" "b") 0 = 4 ∧
      outgoing twinStudy 0 (dispatchOf twinStudy r 0) "a:" "b" (inNode twinStudy "a:" "b") 0 = 0 := by
    have h : (solveLp (fun _ => twinAnswer) ⟨[], [], 0, 0⟩ twinStudy).toOption.map (fun r =>
        ((dispatchOf twinStudy r 0).convSrc "conv" ("a:", "b") 0,
          (dispatchOf twinStudy r 0).convSrc "conv" ("a", ":b") 0,
          (dispatchOf twinStudy r 0).convDest "conv" 0,
          incoming twinStudy (dispatchOf twinStudy r 0) "a:" "b" (inNode twinStudy "a:" "b") 0,
          outgoing twinStudy 0 (dispatchOf twinStudy r 0) "a:" "b" (inNode twinStudy "a:" "b") 0)) =
        some (0, 4, 4, 4, 0) := by decide +kernel
    cases hr : solveLp (fun _ => twinAnswer) ⟨[], [], 0, 0⟩ twinStudy with
    | ok r =>
      rw [hr] at h
      simp only [Except.toOption, Option.map_some, Option.some.injEq, Prod.mk.injEq] at h
      exact ⟨r, rfl, h.1, h.2.1, h.2.2.1, h.2.2.2.1, h.2.2.2.2⟩
    | error e => rw [hr] at h; cases h
  have hn : HasNode twinStudy "a:" "b" (inNode twinStudy "a:" "b") := hasNode_inNode (by decide +kernel)
  have hmem : ("conv", (twinStudy.converters.get? "conv").getD ⟨"", [], "", "", .int0, .int0⟩) ∈
      twinStudy.converters := by decide +kernel
  refine ⟨twinStudy, fun _ => twinAnswer, ⟨[], [], 0, 0⟩, r, twinStudy_built, by decide +kernel, ?_, ?_,
    twinAnswer_feasible, hr, ?_, ?_, ?_⟩
  · rintro g d n ⟨net, hg, hd⟩
    have : ∀ p ∈ twinStudy.networks, ∀ q ∈ p.2.nodes, ∀ l ∈ q.2.links, l.dest ≠ q.1 := by decide +kernel
    exact this _ hg _ hd
  · rintro g d n ⟨net, hg, hd⟩
    have : ∀ p ∈ twinStudy.networks, ∀ q ∈ p.2.nodes, q.2.storages.length ≤ 1 := by decide +kernel
    exact this _ hg _ hd
  · intro h
    have := h _ hmem "a:" "b" ⟨.scalar 1, 1, 1⟩ (by decide +kernel) 0 (by decide +kernel)
    rw [h1, h3] at this
    norm_num at this
  · intro h
    have := h "a:" "b" _ hn 0 (by decide +kernel)
    rw [h4, h5] at this
    norm_num at this
  · intro h
    have := (h.convSrc _ hmem "a" ":b" ⟨.scalar 2, 1, 1⟩ (by decide +kernel) 0 (by decide +kernel)).2
    rw [h2] at this
    revert this
    decide +kernel

/-! ### Concrete cases -/

theorem lpStudy_distinct : DistinctSources lpStudy := by unfold DistinctSources; decide +kernel

/-- a study is accepted ... -/
example : ∃ r, solveLp (fun _ => lpAnswer) ⟨[], [], 0, 0⟩ lpStudy = .ok r ∧
    Spec.Feasible lpStudy 0 (dispatchOf lpStudy r 0) := by
  obtain ⟨r, hr⟩ := (C70 lpStudy_ready.built lpStudy_distinct (by decide +kernel) (by decide +kernel)
    (fun _ => lpAnswer) ⟨[], [], 0, 0⟩).mpr ⟨lpStudy_ready.complete, lpStudy_ready.ratios, lpStudy_ready.clean⟩
  exact ⟨r, hr, (C22_solved_partial lpStudy_ready.built lpStudy_distinct lpStudy_noSelf lpStudy_one hr
    (by decide +kernel) lpAnswer_optimal).1⟩

/-- the ratio is zero, in an array -/
def zeroCalls : List Call :=
  [.studyNetwork "gas", .netNode 0 "g", .nodeProduction 0 "well" (.num 1) (.num 10),
   .nodeToConverter 0 "conv" (.array ⟨[1], [0], rfl⟩),
   .studyNetwork "elec", .netNode 1 "a", .nodeConsumption 1 "load" (.num 100) (.num 1),
   .nodeConverter 1 "conv" "elec" "a" (.num 3) (.num 2)]

def zeroStudy : Study := ((World.start 1 1).run zeroCalls).study

theorem zeroStudy_built : Built zeroStudy := ⟨1, 1, zeroCalls, rawCalls_of (by decide +kernel), rfl⟩

def zeroAnswer : Var → ℚ
  | .prod .. => 10
  | .convSrc .. => 10
  | .lol .. => 1
  | _ => 0

def zeroResult : Result := resultAll zeroStudy (valsOf (fun _ => zeroAnswer) zeroStudy) ⟨[], [], 0, 0⟩

theorem zeroStudy_ready : Ready zeroStudy where
  built := zeroStudy_built
  complete := by unfold CompleteConverters; decide +kernel
  ratios := by
    have h : ∀ p ∈ zeroStudy.converters, ∀ q ∈ p.2.srcRatios, ∀ k < zeroStudy.nbScn, ∀ t < zeroStudy.horizon,
        fval p.2.max k t ≠ 0 ∧ q.2.isNumber = false := by decide +kernel
    exact fun p hp q hq k hk t ht _ =>
      ⟨(h p hp q hq k hk t ht).1, .inl (givenAsArray_of (h p hp q hq k hk t ht).2)⟩
  clean := cleanSources_of (by decide +kernel)

/-- C18 needs ratios that are not zero to limit what converters take: here the solver may answer that a converter of which the maximum is
3 takes 10 and gives nothing. -/
theorem C18_zero_refuted : ∃ s r, Built s ∧ DistinctSources s ∧ (∃ solver b, solveLp solver b s = .ok r ∧
    Answers solver s 0 Cmd.Feasible) ∧ ∃ p ∈ s.converters, fval p.2.max 0 0 = 3 ∧
      (dispatchOf s r 0).convSrc p.1 ("gas", "g") 0 = 10 ∧ (dispatchOf s r 0).convDest p.1 0 = 0 := by
  have hd : DistinctSources zeroStudy := by unfold DistinctSources; decide +kernel
  have h : solveLp (fun _ => zeroAnswer) ⟨[], [], 0, 0⟩ zeroStudy = .ok zeroResult :=
    Ready.solve zeroStudy_ready (fun _ => zeroAnswer) ⟨[], [], 0, 0⟩
  refine ⟨zeroStudy, zeroResult, zeroStudy_built, hd, ⟨_, _, h, ?_⟩, ?_⟩
  · intro steps log h
    obtain rfl := logOf_eq h
    exact Cmd.feasible_of_check (by decide +kernel)
  · decide +kernel

/-- ... one of which a ratio is the number zero is refused ... -/
example (solver : Solver) (b : Benchmark) (r : Result) :
    solveLp solver b ((World.start 1 1).run
      [.studyNetwork "gas", .netNode 0 "g", .nodeProduction 0 "well" (.num 1) (.num 10), .nodeToConverter 0 "conv" (.num 0),
       .studyNetwork "elec", .netNode 1 "a", .nodeConsumption 1 "load" (.num 100) (.num 1),
       .nodeConverter 1 "conv" "elec" "a" (.num 3) (.num 2)]).study ≠ .ok r := by
  intro hr
  have h : (solveLp solver b ((World.start 1 1).run
      [.studyNetwork "gas", .netNode 0 "g", .nodeProduction 0 "well" (.num 1) (.num 10), .nodeToConverter 0 "conv" (.num 0),
       .studyNetwork "elec", .netNode 1 "a", .nodeConsumption 1 "load" (.num 100) (.num 1),
       .nodeConverter 1 "conv" "elec" "a" (.num 3) (.num 2)]).study) = .error .zeroDivisionError := by rfl
  rw [h] at hr
  cases hr

/-- ... and one whose converter has no destination is refused, whatever the solver -/
example (solver : Solver) (b : Benchmark) (r : Result) :
    solveLp solver b ((World.start 2 3).run
      [.studyNetwork "gas", .netNode 0 "g", .nodeProduction 0 "well" (.num 1) (.num 10),
        .nodeToConverter 0 "conv" (.num (1/2))]).study ≠ .ok r := by
  intro hr
  have h := (C70 ⟨2, 3, _, rawCalls_of (by decide +kernel), rfl⟩ (by unfold DistinctSources; decide +kernel)
    (by decide +kernel) (by decide +kernel) solver b).mp ⟨r, hr⟩
  have : ¬ CompleteConverters ((World.start 2 3).run
      [.studyNetwork "gas", .netNode 0 "g", .nodeProduction 0 "well" (.num 1) (.num 10),
        .nodeToConverter 0 "conv" (.num (1/2))]).study := by
    unfold CompleteConverters; decide +kernel
  exact this h.1

/-! ### The theorems applied to concrete cases -/

theorem zeroStudy_solved : solveLp (fun _ => zeroAnswer) ⟨[], [], 0, 0⟩ zeroStudy = .ok zeroResult :=
  Ready.solve zeroStudy_ready _ _

theorem zeroAnswer_feasible : Answers (fun _ => zeroAnswer) zeroStudy 0 Cmd.Feasible := by
  intro steps log h
  obtain rfl := logOf_eq h
  exact Cmd.feasible_of_check (by decide +kernel)

example := C70_zero zeroStudy_built (by unfold DistinctSources; decide +kernel) zeroStudy_solved (k := 0) (by decide +kernel)
  zeroAnswer_feasible (p := ("conv", ⟨"conv", [(["gas", "g"], ⟨.row ⟨[1], [0], rfl⟩, 1, 1⟩)], "elec", "a",
    .val ⟨.scalar 2, 1, 1⟩, .val ⟨.scalar 3, 1, 1⟩⟩)) (by decide +kernel) (t := 0) (by decide +kernel)
  (g := "gas") (d := "g") (v := ⟨.row ⟨[1], [0], rfl⟩, 1, 1⟩) (by decide +kernel) (by decide +kernel)
example := C18_solved_partial lpStudy_ready.built lpStudy_distinct lpStudy_gives (k := 0) (by decide +kernel) lpAnswer_bounds
example := C19_solved_partial lpStudy_ready.built lpStudy_distinct lpStudy_noSelf lpStudy_gives (k := 0) (by decide +kernel)
  lpAnswer_feasible
example := C20_solved_partial lpStudy_ready.built lpStudy_distinct lpStudy_gives (k := 0) (by decide +kernel) lpAnswer_feasible lpStudy_b
  (c := ⟨"cell", ⟨.scalar 8, 1, 1⟩, ⟨.scalar 2, 1, 1⟩, ⟨.scalar 2, 1, 1⟩, ⟨.scalar 0, 1, 1⟩, 5, ⟨.scalar (9/10), 1, 1⟩⟩)
  (by decide +kernel) (t := 0) (by decide +kernel)
example := C21_solved_partial lpStudy_ready.built lpStudy_distinct lpStudy_gives (k := 0) (by decide +kernel) lpAnswer_feasible

end Hadar.Props
