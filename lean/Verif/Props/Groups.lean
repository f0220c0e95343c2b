import Verif.Proofs.Groups
import Verif.Props.Sensitivity
import Verif.Props.Optimum

/-!
# C90: elements that cost the same can be put together
-/

namespace Hadar.Props

open Hadar Spec

variable {s s' : Study} {solver solver' : Solver} {b b' : Benchmark} {r r' : Result} {k k' : ℕ} {C P : String → String → ℕ → ℕ}

/-- C90: putting together consumptions, and productions, of a node that cost the same does not change the least cost -/
theorem C90 (hs : Ready s) (hs' : Ready s') (hk : k < s.nbScn) (hk' : k' < s'.nbScn) (hg : PutTogether C P s k s' k')
    (hq : QuantitiesNonneg s k) (hr : solveLp solver b s = .ok r) (hr' : solveLp solver' b' s' = .ok r')
    (ha : Answers solver s k Cmd.Optimal) (ha' : Answers solver' s' k' Cmd.Optimal) :
    cost s' k' (dispatchOf s' r' k') = cost s k (dispatchOf s r k) := by
  obtain rfl := Ready.result hs hr
  obtain rfl := Ready.result hs' hr'
  have hi := Built.inv hs.built
  have hi' := Built.inv hs'.built
  have ho := optimal_result hi hk _ b (Ready.answer hs hk ha)
  have ho' := optimal_result hi' hk' _ b' (Ready.answer hs' hk' ha')
  apply le_antisymm
  · have := ho'.2 _ (together_codeFeasible hi hg ho.1)
    rwa [together_cost hi hg] at this
  · have := ho.2 _ (apart_codeFeasible hi hi' hg hq ho'.1)
    rwa [apart_cost hi hi' hg ho'.1] at this

/-- C90: nor does it make anything infeasible: flows added up are a dispatch, at the same cost -/
theorem C90_flows (hb : Built s) (hg : PutTogether C P s k s' k') (hself : NoSelfLink s) (h1 : OneStorage s) {D : Dispatch}
    (hD : Spec.Feasible s k D) :
    Spec.Feasible s' k' (D.together C P s) ∧ cost s' k' (D.together C P s) = cost s k D := by
  have hi := Built.inv hb
  refine ⟨feasible_of_code ?_ ?_ (together_codeFeasible hi hg (code_of_feasible hself hD)), together_cost hi hg⟩
  · intro g d n' hn' l' hl'
    obtain ⟨n, hn, hN⟩ := Alike.node hg hn'
    obtain ⟨l, hl, e, -⟩ := forall₂_mem_right hN.rest.links hl'
    rw [← e]
    exact hself g d n hn l hl
  · intro g d n' hn'
    obtain ⟨n, hn, hN⟩ := Alike.node hg hn'
    rw [← hN.rest.storages.length_eq]
    exact h1 g d n hn

/-- C90: the flows of a least cost dispatch, added up, are a least cost dispatch -/
theorem C90_least (hb : Built s) (hb' : Built s') (hg : PutTogether C P s k s' k') (hq : QuantitiesNonneg s k) (hself : NoSelfLink s)
    (h1 : OneStorage s) {D : Dispatch} (hD : Spec.Feasible s k D) (ho : ∀ E, Spec.Feasible s k E → cost s k D ≤ cost s k E) :
    ∀ E, Spec.Feasible s' k' E → cost s' k' (D.together C P s) ≤ cost s' k' E := by
  intro E hE
  have hi := Built.inv hb
  have hi' := Built.inv hb'
  have hself' : NoSelfLink s' := by
    intro g d n' hn' l' hl'
    obtain ⟨n, hn, hN⟩ := Alike.node hg hn'
    obtain ⟨l, hl, e, -⟩ := forall₂_mem_right hN.rest.links hl'
    rw [← e]
    exact hself g d n hn l hl
  have hc := code_of_feasible hself' hE
  rw [together_cost hi hg, ← apart_cost hi hi' hg hc]
  exact ho _ (feasible_of_code hself h1 (apart_codeFeasible hi hi' hg hq hc))

/-! ### Concrete cases -/

/-- two loads that cost the same, two of three plants that cost the same -/
def manyCalls : List Call :=
  [.studyNetwork "n", .netNode 0 "a", .nodeConsumption 0 "home" (.num 100) (.num 6), .nodeConsumption 0 "shop" (.num 100) (.num 5),
   .nodeProduction 0 "east" (.num 10) (.num 3), .nodeProduction 0 "gas" (.num 50) (.num 2), .nodeProduction 0 "west" (.num 10) (.num 4)]

/-- the same, put together -/
def fewCalls : List Call :=
  [.studyNetwork "n", .netNode 0 "a", .nodeConsumption 0 "load" (.num 100) (.num 11),
   .nodeProduction 0 "gas" (.num 50) (.num 2), .nodeProduction 0 "wind" (.num 10) (.num 7)]

def manyStudy : Study := ((World.start 1 1).run manyCalls).study

def fewStudy : Study := ((World.start 1 1).run fewCalls).study

/-- loads go to the first place; the second plant is now the first one, others are now the second one -/
example : PutTogether (fun _ _ _ => 0) (fun _ _ i => if i = 1 then 0 else 1) manyStudy 0 fewStudy 0 := by decide +kernel

example : ¬ PutTogether (fun _ _ _ => 0) (fun _ _ i => if i = 0 then 0 else 1) manyStudy 0 fewStudy 0 := by decide +kernel

theorem manyStudy_quantities : QuantitiesNonneg manyStudy 0 := by
  have h1 : ∀ p ∈ manyStudy.networks, ∀ q ∈ p.2.nodes, ∀ c ∈ q.2.consumptions, ∀ t < manyStudy.horizon, 0 ≤ val c.quantity 0 t := by
    decide +kernel
  have h2 : ∀ p ∈ manyStudy.networks, ∀ q ∈ p.2.nodes, ∀ c ∈ q.2.productions, ∀ t < manyStudy.horizon, 0 ≤ val c.quantity 0 t := by
    decide +kernel
  constructor
  · rintro g d n ⟨net, hg, hd⟩
    exact h1 _ hg _ hd
  · rintro g d n ⟨net, hg, hd⟩
    exact h2 _ hg _ hd

theorem many_ready : Ready manyStudy where
  built := ⟨1, 1, _, rawCalls_of (by decide +kernel), rfl⟩
  complete := by unfold CompleteConverters; decide +kernel
  ratios := RatiosNonzero.usable (by unfold RatiosNonzero; decide +kernel)
  clean := cleanSources_of (by decide +kernel)

theorem few_ready : Ready fewStudy where
  built := ⟨1, 1, _, rawCalls_of (by decide +kernel), rfl⟩
  complete := by unfold CompleteConverters; decide +kernel
  ratios := RatiosNonzero.usable (by unfold RatiosNonzero; decide +kernel)
  clean := cleanSources_of (by decide +kernel)

example (solver : Solver) (r r' : Result) (hr : solveLp solver ⟨[], [], 0, 0⟩ manyStudy = .ok r)
    (hr' : solveLp solver ⟨[], [], 0, 0⟩ fewStudy = .ok r') (ha : Answers solver manyStudy 0 Cmd.Optimal)
    (ha' : Answers solver fewStudy 0 Cmd.Optimal) :
    cost fewStudy 0 (dispatchOf fewStudy r' 0) = cost manyStudy 0 (dispatchOf manyStudy r 0) :=
  C90 (C := fun _ _ _ => 0) (P := fun _ _ i => if i = 1 then 0 else 1) many_ready few_ready (by decide +kernel) (by decide +kernel)
    (by decide +kernel) manyStudy_quantities hr hr' ha ha'

/-! ### The theorems applied to concrete cases -/

def manyAnswer : Var → ℚ
  | .lol _ "n" "a" 0 => 2
  | .prod _ "n" "a" 0 => 3
  | .prod _ "n" "a" 1 => 2
  | .prod _ "n" "a" 2 => 4
  | _ => 0

theorem manyAnswer_feasible : Spec.Feasible manyStudy 0 (ofVars manyAnswer) := by
  have hf : Cmd.Feasible (fullLog manyStudy 0) manyAnswer := Cmd.feasible_of_check (by decide +kernel)
  refine feasible_of_code ?_ ?_ ((feasible_iff (Built.inv many_ready.built) 0 _).mp hf)
  all_goals rintro g d n ⟨net, hg, hd⟩
  · have : ∀ p ∈ manyStudy.networks, ∀ q ∈ p.2.nodes, ∀ l ∈ q.2.links, l.dest ≠ q.1 := by decide +kernel
    exact this _ hg _ hd
  · have : ∀ p ∈ manyStudy.networks, ∀ q ∈ p.2.nodes, q.2.storages.length ≤ 1 := by decide +kernel
    exact this _ hg _ hd

theorem many_noSelf : NoSelfLink manyStudy := by
  rintro g d n ⟨net, hg, hd⟩
  have : ∀ p ∈ manyStudy.networks, ∀ q ∈ p.2.nodes, ∀ l ∈ q.2.links, l.dest ≠ q.1 := by decide +kernel
  exact this _ hg _ hd

theorem many_one : OneStorage manyStudy := by
  rintro g d n ⟨net, hg, hd⟩
  have : ∀ p ∈ manyStudy.networks, ∀ q ∈ p.2.nodes, q.2.storages.length ≤ 1 := by decide +kernel
  exact this _ hg _ hd

/-- 3 from one plant and 4 from the other one are 7 from the plant in their place; the cost, 370, stays -/
example : Spec.Feasible fewStudy 0 ((ofVars manyAnswer).together (fun _ _ _ => 0) (fun _ _ i => if i = 1 then 0 else 1) manyStudy) ∧
    cost fewStudy 0 ((ofVars manyAnswer).together (fun _ _ _ => 0) (fun _ _ i => if i = 1 then 0 else 1) manyStudy) = 370 := by
  have h := C90_flows (C := fun _ _ _ => 0) (P := fun _ _ i => if i = 1 then 0 else 1) many_ready.built (by decide +kernel)
    (s' := fewStudy) (k' := 0) many_noSelf many_one manyAnswer_feasible
  refine ⟨h.1, h.2.trans ?_⟩
  decide +kernel

end Hadar.Props
