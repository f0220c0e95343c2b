import Verif.Proofs.Cascade
import Verif.Props.Passage

/-!
# C150: two converters in a row
-/

namespace Hadar.Props

open Hadar Spec

variable {s s' : Study} {solver solver' : Solver} {bm bm' : Benchmark} {r r' : Result} {k : ℕ} {g m g₁ d₁ a b : String}
  {A B C : Converter} {r₁ r₂ r₃ : NumVal} {kept : List (String × Converter)}

/-- C150, for the documented problem: what two converters in a row do, one does, and the other way round, at the same cost -/
theorem C150_feasible (h : Cascaded s s' k g m g₁ d₁ a b A B C r₁ r₂ r₃ kept) (hb : Built s) :
    (∀ D, Spec.Feasible s k D → (∀ t < s.horizon, D.convDest a t = D.convSrc b (g, m) t) ∧
      Spec.Feasible s' k (asOne g₁ d₁ a b D) ∧ cost s' k (asOne g₁ d₁ a b D) = cost s k D) ∧
    (∀ D, Spec.Feasible s' k D → Spec.Feasible s k (asTwo k g m g₁ d₁ a b r₁ D) ∧
      cost s k (asTwo k g m g₁ d₁ a b r₁ D) = cost s' k D) := by
  have hi := Built.inv hb
  refine ⟨fun D hD => ?_, fun D hD => ?_⟩
  · obtain ⟨n, hn, -⟩ := h.bare
    have hbal : ∀ t < s.horizon, D.convDest a t = D.convSrc b (g, m) t :=
      fun t ht => between_balance h hn hi (hD.balanced g m n hn t ht)
    have hs := asOne_same h hi D
    have hF := feasible_congr_flows hs hD
    have hp := asOne_down h hi hbal
    have hr := ratios_both h hF.ratios
    refine ⟨hbal, (feasible_cascade h hp hr.1 hr.2).mp hF, ?_⟩
    rw [← cost_cascade h hp hr.2, ← cost_congr hs]
  · have hs := asTwo_same h hi D
    have hp := asTwo_down h hi D
    have hr := asTwo_ratios h hi hD.ratios
    refine ⟨(feasible_cascade h hp hr.1 hr.2).mpr (feasible_congr_flows hs hD), ?_⟩
    rw [cost_cascade h hp hr.2, ← cost_congr hs]

/-- C150: two converters in a row and one converter with the product of the ratios give solutions of the same cost; and all that the first
one gives the second one takes -/
theorem C150 (h : Cascaded s s' k g m g₁ d₁ a b A B C r₁ r₂ r₃ kept) (hs : Ready s) (hs' : Ready s') (hk : k < s.nbScn)
    (hr : solveLp solver bm s = .ok r) (hr' : solveLp solver' bm' s' = .ok r')
    (ha : Answers solver s k Cmd.Optimal) (ha' : Answers solver' s' k Cmd.Optimal) :
    cost s k (dispatchOf s r k) = cost s' k (dispatchOf s' r' k) ∧
      ∀ t < s.horizon, (dispatchOf s r k).convDest a t = (dispatchOf s r k).convSrc b (g, m) t := by
  obtain rfl := Ready.result hs hr
  obtain rfl := Ready.result hs' hr'
  have hi := Built.inv hs.built
  have hi' := Built.inv hs'.built
  have hk' : k < s'.nbScn := h.scenarios ▸ hk
  have ho := optimal_result hi hk _ bm (Ready.answer hs hk ha)
  have ho' := optimal_result hi' hk' _ bm' (Ready.answer hs' hk' ha')
  have hbal : ∀ t < s.horizon, (dispatchOf s (resultAll s (valsOf solver s) bm) k).convDest a t =
      (dispatchOf s (resultAll s (valsOf solver s) bm) k).convSrc b (g, m) t := by
    intro t ht
    obtain ⟨n, hn, -, -, -, hl⟩ := h.bare
    have hb := ho.1.balance g m n hn t ht
    have hself : selfFlow (dispatchOf s (resultAll s (valsOf solver s) bm) k) g m n t = 0 := by
      simp [selfFlow, hl, sumI]
    rw [hself, add_zero] at hb
    exact between_balance h hn hi hb
  refine ⟨le_antisymm ?_ ?_, hbal⟩
  · have hsame := asTwo_same h hi (dispatchOf s' (resultAll s' (valsOf solver' s') bm') k)
    have hp := asTwo_down h hi (dispatchOf s' (resultAll s' (valsOf solver' s') bm') k)
    have hq := asTwo_ratios h hi ho'.1.ratios
    rw [cost_congr hsame, ← cost_cascade h hp hq.2]
    exact ho.2 _ ((code_cascade h hp hq.1 hq.2).mpr (CodeFeasible.congr hsame ho'.1))
  · have hsame := asOne_same h hi (dispatchOf s (resultAll s (valsOf solver s) bm) k)
    have hF := CodeFeasible.congr hsame ho.1
    have hp := asOne_down h hi hbal
    have hq := ratios_both h hF.ratios
    rw [cost_congr hsame, cost_cascade h hp hq.2]
    exact ho'.2 _ ((code_cascade h hp hq.1 hq.2).mp hF)

/-! ### A concrete case -/

/-- gas makes steam, and steam makes power -/
def steamStudy : Study := made 1 1
  [.studyNetwork "gas", .netNode 0 "g", .nodeProduction 0 "well" (.num 10) (.num 50), .nodeToConverter 0 "boiler" (.num (4/5)),
   .studyNetwork "steam", .netNode 1 "s", .nodeToConverter 1 "turbine" (.num (1/2)),
   .studyNetwork "power", .netNode 2 "p", .nodeConsumption 2 "load" (.num 1000) (.num 20),
   .nodeConverter 2 "turbine" "power" "p" (.num 12) (.num 3), .nodeConverter 2 "boiler" "steam" "s" (.num 20) (.num 1)]

/-- gas makes power -/
def powerStudy : Study := made 1 1
  [.studyNetwork "gas", .netNode 0 "g", .nodeProduction 0 "well" (.num 10) (.num 50), .nodeToConverter 0 "turbine" (.num (2/5)),
   .studyNetwork "steam", .netNode 1 "s",
   .studyNetwork "power", .netNode 2 "p", .nodeConsumption 2 "load" (.num 1000) (.num 20),
   .nodeConverter 2 "turbine" "power" "p" (.num 10) (.num 5)]

theorem steamStudy_ready : Ready steamStudy where
  built := ⟨1, 1, _, rawCalls_of (by decide +kernel), rfl⟩
  complete := by unfold CompleteConverters; decide +kernel
  ratios := RatiosNonzero.usable (by unfold RatiosNonzero; decide +kernel)
  clean := cleanSources_of (by decide +kernel)

theorem powerStudy_ready : Ready powerStudy where
  built := ⟨1, 1, _, rawCalls_of (by decide +kernel), rfl⟩
  complete := by unfold CompleteConverters; decide +kernel
  ratios := RatiosNonzero.usable (by unfold RatiosNonzero; decide +kernel)
  clean := cleanSources_of (by decide +kernel)

theorem steam_power : Cascaded steamStudy powerStudy 0 "steam" "s" "gas" "g" "boiler" "turbine"
    ⟨"boiler", [(["gas", "g"], number (4/5))], "steam", "s", .val (number 1), .val (number 20)⟩
    ⟨"turbine", [(["steam", "s"], number (1/2))], "power", "p", .val (number 3), .val (number 12)⟩
    ⟨"turbine", [(["gas", "g"], number (2/5))], "power", "p", .val (number 5), .val (number 10)⟩
    (number (4/5)) (number (1/2)) (number (2/5)) [] where
  horizon := by decide +kernel
  scenarios := by decide +kernel
  networks := by decide +kernel
  both := by decide +kernel
  one := by decide +kernel
  firstFrom := rfl
  firstTo := ⟨rfl, rfl⟩
  secondFrom := rfl
  oneFrom := rfl
  oneTo := ⟨rfl, rfl⟩
  notBack := by decide
  notSelf := by decide
  bare := by
    have h : ∃ x ∈ steamStudy.networks, x.1 = "steam" ∧ ∃ q ∈ x.2.nodes, q.1 = "s" ∧ q.2.consumptions = [] ∧ q.2.productions = [] ∧
        q.2.storages = [] ∧ q.2.links = [] := by decide +kernel
    obtain ⟨⟨g, net⟩, hg, e, ⟨d, n⟩, hd, e', hh⟩ := h
    dsimp only at e e' hh
    subst e e'
    exact ⟨n, ⟨net, hg, hd⟩, hh⟩
  unreached := by
    have h : ∀ x ∈ steamStudy.networks, ∀ q ∈ x.2.nodes, ∀ y ∈ q.2.links, y.dest ≠ "s" := by decide +kernel
    rintro d n ⟨net, hg, hd⟩ x hx
    exact h _ hg _ hd x hx
  unused := by simp
  positive := by decide +kernel
  ratio := by decide +kernel
  max := by decide +kernel
  cost := by decide +kernel

/-- the hypotheses are met: with or without steam, whatever the optimal solvers -/
example (solver solver' : Solver) (r r' : Result) (hr : solveLp solver ⟨[], [], 0, 0⟩ steamStudy = .ok r)
    (hr' : solveLp solver' ⟨[], [], 0, 0⟩ powerStudy = .ok r') (ha : Answers solver steamStudy 0 Cmd.Optimal)
    (ha' : Answers solver' powerStudy 0 Cmd.Optimal) :
    cost steamStudy 0 (dispatchOf steamStudy r 0) = cost powerStudy 0 (dispatchOf powerStudy r' 0) :=
  (C150 steam_power steamStudy_ready powerStudy_ready (by decide +kernel) hr hr' ha ha').1

/-- and dispatches are carried over -/
example (D : Dispatch) (hD : Spec.Feasible powerStudy 0 D) :
    Spec.Feasible steamStudy 0 (asTwo 0 "steam" "s" "gas" "g" "boiler" "turbine" (number (4/5)) D) :=
  ((C150_feasible steam_power steamStudy_ready.built).2 D hD).1

end Hadar.Props
