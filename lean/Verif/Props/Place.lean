import Verif.Proofs.Place
import Verif.Props.Extension

/-!
# C114: networks only say which nodes can be linked
-/

namespace Hadar.Props

open Hadar Spec

variable {s s' : Study} {place : Place} {solver solver' : Solver} {b b' : Benchmark} {r r' : Result} {k : ℕ}

/-- C114: nodes put in other networks, such that linked nodes stay in one network, make a study of the same cost -/
theorem C114 (h : Moved place s s') (hs : Ready s) (hs' : Ready s') (hk : k < s.nbScn)
    (hr : solveLp solver b s = .ok r) (hr' : solveLp solver' b' s' = .ok r')
    (ha : Answers solver s k Cmd.Optimal) (ha' : Answers solver' s' k Cmd.Optimal) :
    cost s' k (dispatchOf s' r' k) = cost s k (dispatchOf s r k) := by
  obtain rfl := Ready.result hs hr
  obtain rfl := Ready.result hs' hr'
  have hi := Built.inv hs.built
  have hi' := Built.inv hs'.built
  have hk' : k < s'.nbScn := h.scenarios ▸ hk
  have ho := optimal_result hi hk _ b (Ready.answer hs hk ha)
  have ho' := optimal_result hi' hk' _ b' (Ready.answer hs' hk' ha')
  apply le_antisymm
  · obtain ⟨D', hsame⟩ := onto_place h hi (dispatchOf s (resultAll s (valsOf solver s) b) k)
    rw [cost_congr hsame, ← cost_place h hi hi']
    exact ho'.2 _ ((code_place h hi hi' hs.complete).mpr (CodeFeasible.congr hsame ho.1))
  · rw [cost_place h hi hi']
    exact ho.2 _ ((code_place h hi hi' hs.complete).mp ho'.1)

/-- C114: dispatches of the documented problem are the same, read at the other places, and cost the same -/
theorem C114_dispatch (h : Moved place s s') (hs : Ready s) (hb : Built s') (D : Dispatch) :
    (Spec.Feasible s' k D ↔ Spec.Feasible s k (place.dispatch D)) ∧ cost s' k D = cost s k (place.dispatch D) :=
  ⟨feasible_place h (Built.inv hs.built) (Built.inv hb) hs.complete, cost_place h (Built.inv hs.built) (Built.inv hb)⟩

/-- C114: and every dispatch of the first study is read so -/
theorem C114_onto (h : Moved place s s') (hb : Built s) (D : Dispatch) : ∃ D', SameFlows s D (place.dispatch D') :=
  onto_place h (Built.inv hb) D

/-- C114: the other study is accepted by the optimizer, unless the separator confuses its names -/
theorem C114_ready (h : Moved place s s') (hs : Ready s) (hb : Built s') (hc : CleanSources s') : Ready s' where
  built := hb
  complete := by
    intro p' hp'
    rw [h.converters] at hp'
    obtain ⟨p, hp, rfl⟩ := List.mem_map.mp hp'
    exact hs.complete p hp
  ratios := by
    intro p' hp' q' hq'
    rw [h.converters] at hp'
    obtain ⟨p, hp, rfl⟩ := List.mem_map.mp hp'
    obtain ⟨q, hq, rfl⟩ := List.mem_map.mp hq'
    rw [← h.horizon, ← h.scenarios]
    exact hs.ratios p hp q hq
  clean := hc

/-! ### Concrete cases -/

theorem moved_of (hh : s.horizon = s'.horizon) (hn : s.nbScn = s'.nbScn)
    (h1 : ∀ p ∈ s.networks, ∀ q ∈ p.2.nodes, ∀ p₂ ∈ s.networks, ∀ q₂ ∈ p₂.2.nodes, place (p.1, q.1) = place (p₂.1, q₂.1) →
      (p.1, q.1) = (p₂.1, q₂.1))
    (h2 : ∀ p ∈ s.networks, ∀ q ∈ p.2.nodes, ∃ p' ∈ s'.networks, p'.1 = (place (p.1, q.1)).1 ∧
      ((place (p.1, q.1)).2, place.inNode p.1 q.2) ∈ p'.2.nodes)
    (h3 : ∀ p' ∈ s'.networks, ∀ q' ∈ p'.2.nodes, ∃ p ∈ s.networks, ∃ q ∈ p.2.nodes, place (p.1, q.1) = (p'.1, q'.1))
    (h4 : ∀ p ∈ s.networks, ∀ q ∈ p.2.nodes, ∀ l ∈ q.2.links, (place (p.1, l.dest)).1 = (place (p.1, q.1)).1)
    (h5 : s'.converters = s.converters.map fun p => (p.1, place.converter p.2)) : Moved place s s' where
  horizon := hh
  scenarios := hn
  apart := by
    rintro g d n g2 d2 n2 ⟨net, hg, hd⟩ ⟨net2, hg2, hd2⟩
    exact h1 _ hg _ hd _ hg2 _ hd2
  nodes := by
    rintro g d n ⟨net, hg, hd⟩
    obtain ⟨⟨g', net'⟩, hm, e, hm'⟩ := h2 _ hg _ hd
    exact ⟨net', by rw [← e]; exact hm, hm'⟩
  onto := by
    rintro g d n ⟨net, hg, hd⟩
    obtain ⟨⟨g', net'⟩, hm, ⟨d', n'⟩, hm', e⟩ := h3 _ hg _ hd
    exact ⟨g', d', n', ⟨net', hm, hm'⟩, e⟩
  together := by
    rintro g d n ⟨net, hg, hd⟩
    exact h4 _ hg _ hd
  converters := h5

/-- the elements of `lpStudy` in one network -/
def mergedCalls : List Call :=
  [.studyNetwork "all", .netNode 0 "gas well", .nodeProduction 0 "well" (.num 1) (.num 10),
   .nodeToConverter 0 "conv" (.num (1/2)), .netNode 0 "b", .nodeConsumption 0 "load" (.num 100) (.num 6),
   .nodeStorage 0 ⟨"cell", .num 8, .num 2, .num 2, .num 0, 5, .num (9/10)⟩, .netNode 0 "a",
   .nodeConsumption 0 "load" (.num 100) (.num 10), .nodeProduction 0 "nuke" (.num 20) (.num 15),
   .nodeProduction 0 "fuel" (.num 70) (.num 5), .netLink 0 "a" "b" (.num 1) (.num 4),
   .nodeConverter 0 "conv" "all" "b" (.num 3) (.num 2)]

def mergedStudy : Study := made 1 1 mergedCalls

def inOne : Place := fun x => ("all", if x.2 = "g" then "gas well" else x.2)

theorem lp_merged : Moved inOne lpStudy mergedStudy :=
  moved_of (by decide +kernel) (by decide +kernel) (by decide +kernel) (by decide +kernel) (by decide +kernel) (by decide +kernel)
    (by decide +kernel)

theorem mergedStudy_ready : Ready mergedStudy where
  built := ⟨1, 1, _, rawCalls_of (by decide +kernel), rfl⟩
  complete := by unfold CompleteConverters; decide +kernel
  ratios := RatiosNonzero.usable (by unfold RatiosNonzero; decide +kernel)
  clean := cleanSources_of (by decide +kernel)

example : Ready mergedStudy :=
  C114_ready lp_merged lpStudy_ready mergedStudy_ready.built (cleanSources_of (by decide +kernel))

/-- the hypotheses are met: `lpStudy` has two networks, `mergedStudy` has one; whatever the optimal solver, it costs as much -/
example (solver' : Solver) (r r' : Result) (hr : solveLp (fun _ => lpAnswer) ⟨[], [], 0, 0⟩ lpStudy = .ok r)
    (hr' : solveLp solver' ⟨[], [], 0, 0⟩ mergedStudy = .ok r') (ha : Answers solver' mergedStudy 0 Cmd.Optimal) :
    cost mergedStudy 0 (dispatchOf mergedStudy r' 0) = cost lpStudy 0 (dispatchOf lpStudy r 0) :=
  C114 lp_merged lpStudy_ready mergedStudy_ready (by decide +kernel) hr hr' lpAnswer_optimal ha

/-- dispatches of the merged study are dispatches of `lpStudy`, and each of them is one -/
example (D : Dispatch) : ∃ D', SameFlows lpStudy D (inOne.dispatch D') ∧
    (Spec.Feasible mergedStudy 0 D' ↔ Spec.Feasible lpStudy 0 (inOne.dispatch D')) := by
  obtain ⟨D', hD⟩ := C114_onto lp_merged lpStudy_ready.built D
  exact ⟨D', hD, (C114_dispatch lp_merged lpStudy_ready mergedStudy_ready.built D').1⟩

example : lpStudy.networks.length = 2 ∧ mergedStudy.networks.length = 1 := by decide +kernel

end Hadar.Props
