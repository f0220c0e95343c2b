import Verif.Proofs.Extension
import Verif.Props.Optimum
import Verif.Props.LPExamples
import Verif.Props.Study

/-!
# C83, C84: what is added to a study and its cost
-/

namespace Hadar.Props

open Hadar Spec World

variable {h n : ℕ} {cs cs' : List Call} {solver solver' : Solver} {b b' : Benchmark} {r r' : Result} {k : ℕ}

/-- the study made by calls of the API -/
def made (h n : ℕ) (cs : List Call) : Study := ((World.start h n).run cs).study

theorem made_ext (h n : ℕ) (cs cs' : List Call) : StudyExt (made h n cs) (made h n (cs ++ cs')) := C09_kept h n cs cs'

theorem made_nbScn (h n : ℕ) (cs : List Call) : (made h n cs).nbScn = n := (run_ext (worldInv_start h n) cs).nbScn

/-- C83: further calls never make a study cost more than cutting the consumptions they add and keeping the storages they
add as they are, as long as they add no source to a converter the study has. -/
theorem C83 (hs : Ready (made h n cs)) (hs' : Ready (made h n (cs ++ cs'))) (hk : k < n)
    (hc : SameConverters (made h n cs) (made h n (cs ++ cs'))) (hl : NewLimitsOk (made h n cs) (made h n (cs ++ cs')) k)
    (hr : solveLp solver b (made h n cs) = .ok r) (hr' : solveLp solver' b' (made h n (cs ++ cs')) = .ok r')
    (ha : Answers solver (made h n cs) k Cmd.Feasible) (ha' : Answers solver' (made h n (cs ++ cs')) k Cmd.Optimal) :
    cost (made h n (cs ++ cs')) k (dispatchOf (made h n (cs ++ cs')) r' k) ≤
      cost (made h n cs) k (dispatchOf (made h n cs) r k) + idleCost (made h n cs) (made h n (cs ++ cs')) k := by
  have he := made_ext h n cs cs'
  have hk1 : k < (made h n cs).nbScn := by rw [made_nbScn]; exact hk
  have hk2 : k < (made h n (cs ++ cs')).nbScn := by rw [made_nbScn]; exact hk
  have hi := Built.inv hs.built
  have hi' := Built.inv hs'.built
  obtain rfl := Ready.result hs hr
  obtain rfl := Ready.result hs' hr'
  have hf := (codeFeasible_iff hi hk1 _ b).mp (Ready.answer hs hk1 ha)
  have ho := optimal_result hi' hk2 _ b' (Ready.answer hs' hk2 ha')
  have hsame := extended_same (s' := made h n (cs ++ cs')) (k := k)
    (D := dispatchOf (made h n cs) (resultAll (made h n cs) (valsOf solver (made h n cs)) b) k) hi
  have hS := extended_still (s := made h n cs) (k := k)
    (D := dispatchOf (made h n cs) (resultAll (made h n cs) (valsOf solver (made h n cs)) b) k) hi'
  have h1 := ho.2 _ (still_forth he hi hi' hc hS hs.complete hl (CodeFeasible.congr hsame hf))
  rwa [still_cost he hi hi' hc hS, ← cost_congr hsame] at h1

/-- C83: more productions, links, converters, nodes, networks and empty storages never make a study cost more -/
theorem C83_means (hs : Ready (made h n cs)) (hs' : Ready (made h n (cs ++ cs'))) (hk : k < n)
    (hc : SameConverters (made h n cs) (made h n (cs ++ cs'))) (hl : NewLimitsOk (made h n cs) (made h n (cs ++ cs')) k)
    (hno : ∀ g d m, HasNode (made h n (cs ++ cs')) g d m →
      newIn (inNode (made h n cs) g d).consumptions m.consumptions = [] ∧
      ∀ c ∈ newIn (inNode (made h n cs) g d).storages m.storages, c.initCapacity = 0)
    (hr : solveLp solver b (made h n cs) = .ok r) (hr' : solveLp solver' b' (made h n (cs ++ cs')) = .ok r')
    (ha : Answers solver (made h n cs) k Cmd.Feasible) (ha' : Answers solver' (made h n (cs ++ cs')) k Cmd.Optimal) :
    cost (made h n (cs ++ cs')) k (dispatchOf (made h n (cs ++ cs')) r' k) ≤
      cost (made h n cs) k (dispatchOf (made h n cs) r k) := by
  have key := C83 hs hs' hk hc hl hr hr' ha ha'
  have h0 : idleCost (made h n cs) (made h n (cs ++ cs')) k = 0 := by
    unfold idleCost
    apply sumL_eq_zero
    intro t _
    apply sumL_eq_zero
    intro p hp
    apply sumL_eq_zero
    intro q hq
    obtain ⟨h1, h2⟩ := hno p.1 q.1 q.2 ⟨p.2, hp, hq⟩
    have e1 : (sumL (newIn (inNode (made h n cs) p.1 q.1).storages q.2.storages) fun c => val c.cost k t * c.initCapacity) = 0 :=
      sumL_eq_zero fun c hc => by rw [h2 c hc, mul_zero]
    rw [h1, e1]
    simp [sumL]
  rwa [h0, add_zero] at key

/-- C83, for the documented problem: a feasible dispatch stays one when new consumptions are cut and what else is new does
nothing -/
theorem C83_feasible (hs : Ready (made h n cs)) (hs' : Ready (made h n (cs ++ cs')))
    (hself : NoSelfLink (made h n (cs ++ cs'))) (h1 : OneStorage (made h n (cs ++ cs')))
    (hc : SameConverters (made h n cs) (made h n (cs ++ cs'))) (hl : NewLimitsOk (made h n cs) (made h n (cs ++ cs')) k)
    {D : Dispatch} (hD : Spec.Feasible (made h n cs) k D) :
    Spec.Feasible (made h n (cs ++ cs')) k (extended (made h n cs) (made h n (cs ++ cs')) k D) ∧
    cost (made h n (cs ++ cs')) k (extended (made h n cs) (made h n (cs ++ cs')) k D) =
      cost (made h n cs) k D + idleCost (made h n cs) (made h n (cs ++ cs')) k := by
  have he := made_ext h n cs cs'
  have hi := Built.inv hs.built
  have hi' := Built.inv hs'.built
  have hself0 : NoSelfLink (made h n cs) := by
    intro g d m hm l hlm
    obtain ⟨m', hm', hx⟩ := he.hasNode hm
    exact hself g d m' hm' l (hx.links.subset hlm)
  have hsame := extended_same (s' := made h n (cs ++ cs')) (k := k) (D := D) hi
  have hS := extended_still (s := made h n cs) (k := k) (D := D) hi'
  refine ⟨feasible_of_code hself h1 (still_forth he hi hi' hc hS hs.complete hl
    (CodeFeasible.congr hsame (code_of_feasible hself0 hD))), ?_⟩
  rw [still_cost he hi hi' hc hS, ← cost_congr hsame]

/-- C84: elements whose limits are all zero do not change the least cost -/
theorem C84 (hs : Ready (made h n cs)) (hs' : Ready (made h n (cs ++ cs'))) (hk : k < n)
    (hc : SameConverters (made h n cs) (made h n (cs ++ cs'))) (hz : NewIdle (made h n cs) (made h n (cs ++ cs')) k)
    (hp : ∀ p, NewConverter (made h n cs) (made h n (cs ++ cs')) p → ∀ q ∈ p.2.srcRatios, ∀ t < h, 0 ≤ val q.2 k t)
    (hr : solveLp solver b (made h n cs) = .ok r) (hr' : solveLp solver' b' (made h n (cs ++ cs')) = .ok r')
    (ha : Answers solver (made h n cs) k Cmd.Optimal) (ha' : Answers solver' (made h n (cs ++ cs')) k Cmd.Optimal) :
    cost (made h n (cs ++ cs')) k (dispatchOf (made h n (cs ++ cs')) r' k) =
      cost (made h n cs) k (dispatchOf (made h n cs) r k) := by
  have he := made_ext h n cs cs'
  have hk1 : k < (made h n cs).nbScn := by rw [made_nbScn]; exact hk
  have hk2 : k < (made h n (cs ++ cs')).nbScn := by rw [made_nbScn]; exact hk
  have hh : (made h n (cs ++ cs')).horizon = h := (run_ext (worldInv_start h n) (cs ++ cs')).horizon
  have hi := Built.inv hs.built
  have hi' := Built.inv hs'.built
  have hl : NewLimitsOk (made h n cs) (made h n (cs ++ cs')) k := by
    refine ⟨fun g d m hm c hc t ht => (hz.consumptions g d m hm c hc t ht).ge,
      fun g d m hm c hc t ht => (hz.productions g d m hm c hc t ht).ge,
      fun g d m hm c hc t ht => (hz.links g d m hm c hc t ht).ge, ?_, ?_⟩
    · intro g d m hm c hc t ht
      obtain ⟨z1, z2, z3, z4⟩ := hz.storages g d m hm c hc t ht
      rw [z1, z2, z3, z4]
      exact ⟨le_refl _, le_refl _, le_refl _, le_refl _⟩
    · intro p hp' t ht
      exact ⟨(hz.converters p hp' t ht).ge, fun q hq => hp p hp' q hq t (hh ▸ ht)⟩
  have h0 : idleCost (made h n cs) (made h n (cs ++ cs')) k = 0 := by
    unfold idleCost
    apply sumL_eq_zero
    intro t ht
    have ht : t < (made h n (cs ++ cs')).horizon := by simpa using ht
    apply sumL_eq_zero
    intro p hp
    apply sumL_eq_zero
    intro q hq
    rw [sumL_eq_zero (fun c hc => by rw [hz.consumptions p.1 q.1 q.2 ⟨p.2, hp, hq⟩ c hc t ht, mul_zero]),
      sumL_eq_zero (fun c hc => by rw [(hz.storages p.1 q.1 q.2 ⟨p.2, hp, hq⟩ c hc t ht).1, mul_zero]), add_zero]
  have h1 := C83 hs hs' hk hc hl hr hr' (fun st log hb => (ha st log hb).1) ha'
  rw [h0, add_zero] at h1
  apply le_antisymm h1
  obtain rfl := Ready.result hs hr
  obtain rfl := Ready.result hs' hr'
  have ho := optimal_result hi hk1 _ b (Ready.answer hs hk1 ha)
  have hf' := (codeFeasible_iff hi' hk2 _ b').mp (Ready.answer hs' hk2 ha').1
  have hS := idle_still he hi hi' hz hs'.ratios hk2 hf'.bounds
  have h2 := ho.2 _ (still_back he hi hi' hc hS hf')
  rw [still_cost he hi hi' hc hS, h0, add_zero]
  exact h2

/-! ### Concrete cases -/

theorem newLimits_of {s s' : Study} {k : ℕ} (h : ∀ p ∈ s'.networks, ∀ q ∈ p.2.nodes,
      (∀ c ∈ newIn (inNode s p.1 q.1).consumptions q.2.consumptions, ∀ t < s'.horizon, 0 ≤ val c.quantity k t) ∧
      (∀ c ∈ newIn (inNode s p.1 q.1).productions q.2.productions, ∀ t < s'.horizon, 0 ≤ val c.quantity k t) ∧
      (∀ c ∈ newIn (inNode s p.1 q.1).links q.2.links, ∀ t < s'.horizon, 0 ≤ val c.quantity k t) ∧
      (∀ c ∈ newIn (inNode s p.1 q.1).storages q.2.storages, ∀ t < s'.horizon, 0 ≤ c.initCapacity ∧
        c.initCapacity ≤ val c.capacity k t ∧ 0 ≤ val c.flowIn k t ∧ 0 ≤ val c.flowOut k t))
    (hc : ∀ p ∈ s'.converters, p.1 ∉ s.converters.map Prod.fst → ∀ t < s'.horizon, 0 ≤ fval p.2.max k t ∧
      ∀ q ∈ p.2.srcRatios, 0 ≤ val q.2 k t) : NewLimitsOk s s' k := by
  refine ⟨?_, ?_, ?_, ?_, fun p hp => hc p hp.1 hp.2⟩
  · rintro g d n ⟨net, hg, hd⟩; exact (h _ hg _ hd).1
  · rintro g d n ⟨net, hg, hd⟩; exact (h _ hg _ hd).2.1
  · rintro g d n ⟨net, hg, hd⟩; exact (h _ hg _ hd).2.2.1
  · rintro g d n ⟨net, hg, hd⟩; exact (h _ hg _ hd).2.2.2

/-- added to `lpStudy`: a production, a link, a node with a load and a storage, a network, a converter -/
def moreCalls : List Call :=
  [.nodeProduction 0 "sun" (.num 0) (.num 2), .netLink 0 "b" "a" (.num 1) (.num 2), .netNode 0 "c",
   .nodeConsumption 0 "load" (.num 50) (.num 1), .nodeStorage 0 ⟨"dam", .num 7, .num 1, .num 1, .num 2, 3, .num 1⟩,
   .studyNetwork "heat", .netNode 2 "h", .nodeToConverter 2 "pump" (.num 3),
   .nodeConverter 2 "pump" "elec" "c" (.num 3) (.num 2)]

theorem more_ready : Ready (made 1 1 (lpCalls ++ moreCalls)) where
  built := ⟨1, 1, lpCalls ++ moreCalls, rawCalls_of (by decide +kernel), rfl⟩
  complete := by unfold CompleteConverters; decide +kernel
  ratios := RatiosNonzero.usable (by unfold RatiosNonzero; decide +kernel)
  clean := cleanSources_of (by decide +kernel)

theorem more_limits : NewLimitsOk (made 1 1 lpCalls) (made 1 1 (lpCalls ++ moreCalls)) 0 :=
  newLimits_of (by decide +kernel) (by decide +kernel)

theorem more_idle : idleCost (made 1 1 lpCalls) (made 1 1 (lpCalls ++ moreCalls)) 0 = 56 := by decide +kernel

/-- the hypotheses are met: `lpStudy` costs 233, with `moreCalls` it costs at most 50 for the new load and 6 for the new
storage more, whatever the optimal solver -/
example (solver' : Solver) (r r' : Result) (hr : solveLp (fun _ => lpAnswer) ⟨[], [], 0, 0⟩ lpStudy = .ok r)
    (hr' : solveLp solver' ⟨[], [], 0, 0⟩ (made 1 1 (lpCalls ++ moreCalls)) = .ok r')
    (ha : Answers solver' (made 1 1 (lpCalls ++ moreCalls)) 0 Cmd.Optimal) :
    cost (made 1 1 (lpCalls ++ moreCalls)) 0 (dispatchOf (made 1 1 (lpCalls ++ moreCalls)) r' 0) ≤
      cost lpStudy 0 (dispatchOf lpStudy r 0) + 56 := by
  have h := C83 (cs := lpCalls) (cs' := moreCalls) lpStudy_ready more_ready (by decide +kernel)
    (by unfold SameConverters; decide +kernel) more_limits hr hr' (fun st log hb => (lpAnswer_optimal st log hb).1) ha
  rw [more_idle] at h
  exact h

/-- something new was added -/
example : (newIn (inNode lpStudy "elec" "b").productions (inNode (made 1 1 (lpCalls ++ moreCalls)) "elec" "b").productions).length = 1 ∧
    (newIn (inNode lpStudy "elec" "c").storages (inNode (made 1 1 (lpCalls ++ moreCalls)) "elec" "c").storages).length = 1 := by
  decide +kernel

/-- elements without use -/
def idleCalls : List Call :=
  [.nodeProduction 0 "sun" (.num 0) (.num 0), .netLink 0 "b" "a" (.num 1) (.num 0), .netNode 0 "c",
   .nodeConsumption 0 "load" (.num 50) (.num 0), .nodeStorage 0 ⟨"dam", .num 0, .num 0, .num 0, .num 2, 0, .num 1⟩,
   .studyNetwork "heat", .netNode 2 "h", .nodeToConverter 2 "pump" (.num 3),
   .nodeConverter 2 "pump" "elec" "c" (.num 0) (.num 2)]

theorem newIdle_of {s s' : Study} {k : ℕ} (h : ∀ p ∈ s'.networks, ∀ q ∈ p.2.nodes,
      (∀ c ∈ newIn (inNode s p.1 q.1).consumptions q.2.consumptions, ∀ t < s'.horizon, val c.quantity k t = 0) ∧
      (∀ c ∈ newIn (inNode s p.1 q.1).productions q.2.productions, ∀ t < s'.horizon, val c.quantity k t = 0) ∧
      (∀ c ∈ newIn (inNode s p.1 q.1).links q.2.links, ∀ t < s'.horizon, val c.quantity k t = 0) ∧
      (∀ c ∈ newIn (inNode s p.1 q.1).storages q.2.storages, ∀ t < s'.horizon, c.initCapacity = 0 ∧
        val c.capacity k t = 0 ∧ val c.flowIn k t = 0 ∧ val c.flowOut k t = 0))
    (hc : ∀ p ∈ s'.converters, p.1 ∉ s.converters.map Prod.fst → ∀ t < s'.horizon, fval p.2.max k t = 0) :
    NewIdle s s' k := by
  refine ⟨?_, ?_, ?_, ?_, fun p hp => hc p hp.1 hp.2⟩
  · rintro g d n ⟨net, hg, hd⟩; exact (h _ hg _ hd).1
  · rintro g d n ⟨net, hg, hd⟩; exact (h _ hg _ hd).2.1
  · rintro g d n ⟨net, hg, hd⟩; exact (h _ hg _ hd).2.2.1
  · rintro g d n ⟨net, hg, hd⟩; exact (h _ hg _ hd).2.2.2

theorem idle_ready : Ready (made 1 1 (lpCalls ++ idleCalls)) where
  built := ⟨1, 1, lpCalls ++ idleCalls, rawCalls_of (by decide +kernel), rfl⟩
  complete := by unfold CompleteConverters; decide +kernel
  ratios := RatiosNonzero.usable (by unfold RatiosNonzero; decide +kernel)
  clean := cleanSources_of (by decide +kernel)

/-- the hypotheses of `C84` are met -/
example (solver' : Solver) (r r' : Result) (hr : solveLp (fun _ => lpAnswer) ⟨[], [], 0, 0⟩ lpStudy = .ok r)
    (hr' : solveLp solver' ⟨[], [], 0, 0⟩ (made 1 1 (lpCalls ++ idleCalls)) = .ok r')
    (ha : Answers solver' (made 1 1 (lpCalls ++ idleCalls)) 0 Cmd.Optimal) :
    cost (made 1 1 (lpCalls ++ idleCalls)) 0 (dispatchOf (made 1 1 (lpCalls ++ idleCalls)) r' 0) =
      cost lpStudy 0 (dispatchOf lpStudy r 0) :=
  C84 (cs := lpCalls) (cs' := idleCalls) lpStudy_ready idle_ready (by decide +kernel)
    (by unfold SameConverters; decide +kernel) (newIdle_of (by decide +kernel) (by decide +kernel))
    (fun p hp => (show ∀ p ∈ (made 1 1 (lpCalls ++ idleCalls)).converters, ∀ q ∈ p.2.srcRatios, ∀ t < 1, 0 ≤ val q.2 0 t by
      decide +kernel) p hp.1) hr hr' lpAnswer_optimal ha

/-! ### A source more for a converter -/

/-- a load served by a converter -/
def servedCalls : List Call :=
  [.studyNetwork "gas", .netNode 0 "g", .nodeProduction 0 "well" (.num 0) (.num 5),
   .studyNetwork "elec", .netNode 1 "e", .nodeConsumption 1 "load" (.num 100) (.num 5),
   .nodeToConverter 0 "conv" (.num 1), .nodeConverter 0 "conv" "elec" "e" (.num 5) (.num 0)]

/-- a source more for the converter, with nothing to give -/
def sourceCalls : List Call := [.netNode 0 "w", .nodeToConverter 0 "conv" (.num 1)]

theorem served_ready : Ready (made 1 1 servedCalls) where
  built := ⟨1, 1, servedCalls, rawCalls_of (by decide +kernel), rfl⟩
  complete := by unfold CompleteConverters; decide +kernel
  ratios := RatiosNonzero.usable (by unfold RatiosNonzero; decide +kernel)
  clean := cleanSources_of (by decide +kernel)

theorem source_ready : Ready (made 1 1 (servedCalls ++ sourceCalls)) where
  built := ⟨1, 1, servedCalls ++ sourceCalls, rawCalls_of (by decide +kernel), rfl⟩
  complete := by unfold CompleteConverters; decide +kernel
  ratios := RatiosNonzero.usable (by unfold RatiosNonzero; decide +kernel)
  clean := cleanSources_of (by decide +kernel)

def servedAnswer : Var → ℚ
  | .lol .. => 0
  | _ => 5

def sourceAnswer : Var → ℚ
  | .lol .. => 5
  | _ => 0

theorem servedAnswer_optimal : Answers (fun _ => servedAnswer) (made 1 1 servedCalls) 0 Cmd.Optimal := by
  intro steps log h
  obtain rfl := logOf_eq h
  refine ⟨Cmd.feasible_of_check (by decide +kernel), ?_⟩
  intro y hy
  have b1 := hy.1.1 (.lol 0 "elec" "e" 0) 0 5 (by decide +kernel)
  have e : Cmd.objCoefs (logOf (made 1 1 servedCalls) 0) = [(.prod 0 "gas" "g" 0, 0), (.lol 0 "elec" "e" 0, 100),
      (.convDest 0 "conv", 0)] := by decide +kernel
  unfold Cmd.objective
  rw [e]
  simp [Cmd.value, servedAnswer]
  linarith [b1.1]

theorem sourceAnswer_optimal : Answers (fun _ => sourceAnswer) (made 1 1 (servedCalls ++ sourceCalls)) 0 Cmd.Optimal := by
  intro steps log h
  obtain rfl := logOf_eq h
  refine ⟨Cmd.feasible_of_check (by decide +kernel), ?_⟩
  intro y hy
  have r1 := value_ge hy (r := .adeq 0 "elec" "e") (lo := 5) (hi := 5)
    (d := [(.lol 0 "elec" "e" 0, 1), (.convDest 0 "conv", 1)]) (by decide +kernel) (by decide +kernel)
  have r2 := value_ge hy (r := .adeq 0 "gas" "w") (lo := 0) (hi := 0)
    (d := [(.convSrc 0 "conv" ["gas", "w"], -1)]) (by decide +kernel) (by decide +kernel)
  have r3 := value_ge hy (r := .mix 0 "conv" ["gas", "w"]) (lo := 0) (hi := 0)
    (d := [(.convSrc 0 "conv" ["gas", "w"], 1), (.convDest 0 "conv", -1)]) (by decide +kernel) (by decide +kernel)
  have e : Cmd.objCoefs (logOf (made 1 1 (servedCalls ++ sourceCalls)) 0) = [(.prod 0 "gas" "g" 0, 0),
      (.lol 0 "elec" "e" 0, 100), (.convDest 0 "conv", 0)] := by decide +kernel
  simp only [Cmd.value, List.map_cons, List.map_nil, List.sum_cons, List.sum_nil] at r1 r2 r3
  unfold Cmd.objective
  rw [e]
  simp [Cmd.value, sourceAnswer]
  linarith [r1.1, r1.2, r2.1, r2.2, r3.1, r3.2]

/-- why `C83` asks that converters be the same: a source more makes the study cost 500 in place of 0, though the calls add
no consumption nor storage -/
theorem C83_source : ∃ cs cs' solver solver' b r r', Ready (made 1 1 cs) ∧ Ready (made 1 1 (cs ++ cs')) ∧
    NewLimitsOk (made 1 1 cs) (made 1 1 (cs ++ cs')) 0 ∧ idleCost (made 1 1 cs) (made 1 1 (cs ++ cs')) 0 = 0 ∧
    Answers solver (made 1 1 cs) 0 Cmd.Optimal ∧ Answers solver' (made 1 1 (cs ++ cs')) 0 Cmd.Optimal ∧
    solveLp solver b (made 1 1 cs) = .ok r ∧ solveLp solver' b (made 1 1 (cs ++ cs')) = .ok r' ∧
    cost (made 1 1 cs) 0 (dispatchOf (made 1 1 cs) r 0) = 0 ∧
    cost (made 1 1 (cs ++ cs')) 0 (dispatchOf (made 1 1 (cs ++ cs')) r' 0) = 500 := by
  refine ⟨servedCalls, sourceCalls, fun _ => servedAnswer, fun _ => sourceAnswer, ⟨[], [], 0, 0⟩, _, _, served_ready,
    source_ready, newLimits_of (by decide +kernel) (by decide +kernel), by decide +kernel, servedAnswer_optimal,
    sourceAnswer_optimal, Ready.solve served_ready _ _, Ready.solve source_ready _ _, by decide +kernel, by decide +kernel⟩

/-! ### The theorems applied to concrete cases -/

/-- a second production for `servedCalls` -/
def springCalls : List Call := [.nodeProduction 0 "spring" (.num 0) (.num 2)]

def springAnswer : Var → ℚ
  | .lol .. => 0
  | .prod _ _ _ 1 => 0
  | _ => 5

theorem spring_ready : Ready (made 1 1 (servedCalls ++ springCalls)) where
  built := ⟨1, 1, servedCalls ++ springCalls, rawCalls_of (by decide +kernel), rfl⟩
  complete := by unfold CompleteConverters; decide +kernel
  ratios := RatiosNonzero.usable (by unfold RatiosNonzero; decide +kernel)
  clean := cleanSources_of (by decide +kernel)

theorem springAnswer_optimal : Answers (fun _ => springAnswer) (made 1 1 (servedCalls ++ springCalls)) 0 Cmd.Optimal := by
  intro steps log h
  obtain rfl := logOf_eq h
  refine ⟨Cmd.feasible_of_check (by decide +kernel), ?_⟩
  intro y hy
  have b1 := hy.1.1 (.lol 0 "elec" "e" 0) 0 5 (by decide +kernel)
  have e : Cmd.objCoefs (logOf (made 1 1 (servedCalls ++ springCalls)) 0) = [(.prod 0 "gas" "g" 0, 0),
      (.prod 0 "gas" "g" 1, 0), (.lol 0 "elec" "e" 0, 100), (.convDest 0 "conv", 0)] := by decide +kernel
  unfold Cmd.objective
  rw [e]
  simp [Cmd.value, springAnswer]
  linarith [b1.1]

example := C83_means (cs := servedCalls) (cs' := springCalls) served_ready spring_ready (by decide +kernel)
  (by unfold SameConverters; decide +kernel) (newLimits_of (by decide +kernel) (by decide +kernel))
  (by
    rintro g d m ⟨net, hg, hd⟩
    have : ∀ p ∈ (made 1 1 (servedCalls ++ springCalls)).networks, ∀ q ∈ p.2.nodes,
        newIn (inNode (made 1 1 servedCalls) p.1 q.1).consumptions q.2.consumptions = [] ∧
        ∀ c ∈ newIn (inNode (made 1 1 servedCalls) p.1 q.1).storages q.2.storages, c.initCapacity = 0 := by decide +kernel
    exact this _ hg _ hd)
  (Ready.solve served_ready (fun _ => servedAnswer) ⟨[], [], 0, 0⟩)
  (Ready.solve spring_ready (fun _ => springAnswer) ⟨[], [], 0, 0⟩)
  (fun st log hb => (servedAnswer_optimal st log hb).1) springAnswer_optimal

theorem more_noSelf : NoSelfLink (made 1 1 (lpCalls ++ moreCalls)) := by
  rintro g d n ⟨net, hg, hd⟩
  have : ∀ p ∈ (made 1 1 (lpCalls ++ moreCalls)).networks, ∀ q ∈ p.2.nodes, ∀ l ∈ q.2.links, l.dest ≠ q.1 := by decide +kernel
  exact this _ hg _ hd

theorem more_one : OneStorage (made 1 1 (lpCalls ++ moreCalls)) := by
  rintro g d n ⟨net, hg, hd⟩
  have : ∀ p ∈ (made 1 1 (lpCalls ++ moreCalls)).networks, ∀ q ∈ p.2.nodes, q.2.storages.length ≤ 1 := by decide +kernel
  exact this _ hg _ hd

/-- a dispatch of `lpStudy`, with the elements added at rest -/
example := C83_feasible (cs := lpCalls) (cs' := moreCalls) (k := 0) lpStudy_ready more_ready more_noSelf more_one
  (by unfold SameConverters; decide +kernel) more_limits
  (C22_least_cost_partial lpStudy_ready lpStudy_noSelf lpStudy_one (Ready.solve lpStudy_ready (fun _ => lpAnswer) ⟨[], [], 0, 0⟩)
    (by decide +kernel) lpAnswer_optimal).1

end Hadar.Props
