import Verif.Proofs.Rename
import Verif.Props.LPExamples

/-!
# C87: names do not matter
-/

namespace Hadar.Props

open Hadar Spec

variable {ρ : Names}

/-- C87: under other names, every call of the API returns or raises what it did, -/
theorem C87_call (h : ρ.Ok) (c : Call) (w : World) : (World.step (ρ.call c) (ρ.world w)).1 = (World.step c w).1 := by
  rw [renames_step h c w]
  cases (World.step c w).1 <;> rfl

/-- and the study made by any calls is the same study under other names -/
theorem C87_build (h : ρ.Ok) (hz n : ℕ) (cs : List Call) :
    ((World.start hz n).run (cs.map ρ.call)).study = ρ.study ((World.start hz n).run cs).study := by
  rw [← renames_start (ρ := ρ), renames_run h]
  rfl

/-- C87: the study under other names is accepted by the optimizer, unless the separator confuses its new names -/
theorem C87_ready (h : ρ.Ok) {s : Study} (hs : Ready s) (hc : CleanSources (ρ.study s)) : Ready (ρ.study s) where
  built := built_rename h hs.built
  complete := by
    intro p' hp'
    obtain ⟨p, hp, rfl⟩ := List.mem_map.mp hp'
    exact hs.complete p hp
  ratios := by
    intro p' hp' q' hq'
    obtain ⟨p, hp, rfl⟩ := List.mem_map.mp hp'
    obtain ⟨q, hq, rfl⟩ := List.mem_map.mp hq'
    exact hs.ratios p hp q hq
  clean := hc

/-- C87: it has the same least cost -/
theorem C87 (h : ρ.Ok) {s : Study} {S S' : Solver} {b b' : Benchmark} {r r' : Result} {k : ℕ} (hs : Ready s)
    (hc : CleanSources (ρ.study s)) (hk : k < s.nbScn) (hr : solveLp S b s = .ok r) (hr' : solveLp S' b' (ρ.study s) = .ok r')
    (ha : Answers S s k Cmd.Optimal) (ha' : Answers S' (ρ.study s) k Cmd.Optimal) :
    cost (ρ.study s) k (dispatchOf (ρ.study s) r' k) = cost s k (dispatchOf s r k) := by
  have hs' := C87_ready h hs hc
  obtain rfl := Ready.result hs hr
  obtain rfl := Ready.result hs' hr'
  have ho := optimal_result (Built.inv hs.built) hk _ b (Ready.answer hs hk ha)
  have ho' := optimal_result (Built.inv hs'.built) (k := k) hk _ b' (Ready.answer hs' hk ha')
  apply le_antisymm
  · obtain ⟨D', e⟩ := dispatch_rename h (dispatchOf s (resultAll s (valsOf S s) b) k)
    have h1 := ho'.2 D' ((codeFeasible_rename h).mpr (by rw [e]; exact ho.1))
    rw [cost_rename (D := D'), e] at h1
    exact h1
  · have h1 := ho.2 _ ((codeFeasible_rename h).mp ho'.1)
    rw [← cost_rename] at h1
    exact h1

/-- C87: and the same dispatches, under other names: the ones of the documented problem are the same -/
theorem C87_dispatch (h : ρ.Ok) {s : Study} {k : ℕ} (D : Dispatch) :
    (Spec.Feasible (ρ.study s) k D ↔ Spec.Feasible s k (ρ.dispatch D)) ∧ cost (ρ.study s) k D = cost s k (ρ.dispatch D) :=
  ⟨feasible_rename h, cost_rename⟩

/-- every dispatch has its image under other names -/
theorem C87_onto (h : ρ.Ok) (D : Dispatch) : ∃ D', ρ.dispatch D' = D := dispatch_rename h D

/-! ### Concrete cases -/

/-- a letter is put before names -/
def prefixName (s : String) : String := if s = "" then "" else "x" ++ s

theorem prefixName_injective : Function.Injective prefixName := by
  intro a b e
  unfold prefixName at e
  have hx : ∀ s : String, "x" ++ s ≠ "" := by
    intro s hs
    have := congrArg String.length hs
    rw [String.length_append] at this
    simp at this
  split_ifs at e with ha hb
  · rw [ha, hb]
  · exact absurd e.symm (hx b)
  · exact absurd e (hx a)
  · exact (String.append_right_inj _).mp e

def prefixNames : Names := ⟨prefixName, prefixName, prefixName, prefixName⟩

theorem prefixNames_ok : prefixNames.Ok :=
  ⟨prefixName_injective, prefixName_injective, prefixName_injective, prefixName_injective, rfl, rfl⟩

example : Ready (prefixNames.study lpStudy) := C87_ready prefixNames_ok lpStudy_ready (cleanSources_of (by decide +kernel))

/-- the calls of `lpStudy` under other names give `lpStudy` under other names -/
example : ((World.start 1 1).run (lpCalls.map prefixNames.call)).study = prefixNames.study lpStudy :=
  C87_build prefixNames_ok 1 1 lpCalls

example : (prefixNames.study lpStudy).networks.map (fun p => (p.1, p.2.nodes.map Prod.fst)) =
    [("xelec", ["xa", "xb"]), ("xgas", ["xg"])] := by decide +kernel

/-- `lpStudy` costs 233 (`LPExamples`), under other names too, whatever the optimal solver -/
example (solver' : Solver) (r r' : Result) (hr : solveLp (fun _ => lpAnswer) ⟨[], [], 0, 0⟩ lpStudy = .ok r)
    (hr' : solveLp solver' ⟨[], [], 0, 0⟩ (prefixNames.study lpStudy) = .ok r')
    (ha : Answers solver' (prefixNames.study lpStudy) 0 Cmd.Optimal) :
    cost (prefixNames.study lpStudy) 0 (dispatchOf (prefixNames.study lpStudy) r' 0) = cost lpStudy 0 (dispatchOf lpStudy r 0) :=
  C87 prefixNames_ok lpStudy_ready (cleanSources_of (by decide +kernel)) (by decide +kernel) hr hr' lpAnswer_optimal ha

/-- two names are exchanged, one is the empty name -/
def swapEmpty (s : String) : String := if s = "" then "x" else if s = "x" then "" else s

def swapNames : Names := ⟨id, swapEmpty, id, id⟩

def emptyCalls : List Call :=
  [.studyNetwork "n", .netNode 0 "", .nodeConverter 0 "c" "n" "" (.num 1) (.num 1), .nodeConverter 0 "c" "n" "" (.num 2) (.num 1)]

/-- C87, why the empty name must stay: a converter going to a node with an empty name can be given another destination -/
theorem C87_empty : Function.Injective swapEmpty ∧
    ((World.start 1 1).run (emptyCalls.map swapNames.call)).study ≠ swapNames.study ((World.start 1 1).run emptyCalls).study := by
  refine ⟨?_, by decide +kernel⟩
  intro a b e
  unfold swapEmpty at e
  split_ifs at e <;> simp_all

/-! ### The theorems applied to concrete cases -/

example := C87_call prefixNames_ok (.nodeProduction 0 "sun" (.num 1) (.num 2)) ((World.start 1 1).run lpCalls)
example := C87_dispatch prefixNames_ok (s := lpStudy) (k := 0)
  (prefixNames.dispatch (dispatchOf lpStudy (resultAll lpStudy (valsOf (fun _ => lpAnswer) lpStudy) ⟨[], [], 0, 0⟩) 0))

end Hadar.Props
