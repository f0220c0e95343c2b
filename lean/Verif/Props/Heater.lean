import Verif.Proofs.Heater
import Verif.Props.Passage

/-!
# C152: a load behind a converter
-/

namespace Hadar.Props

open Hadar Spec

variable {s s' : Study} {solver solver' : Solver} {b b' : Benchmark} {r r' : Result} {k : ℕ} {g m g₂ e a : String} {A : Converter}
  {v : NumVal} {c c' : Consumption}

/-- C152, for the documented problem: what is served after conversion can be served before it, and the other way round, and costs change by
what is paid in any case -/
theorem C152_feasible (h : Heated s s' k g m g₂ e a A v c c') (hb : Built s) (hb' : Built s') :
    (∀ D, Spec.Feasible s k D → (∀ t < s.horizon, val c.quantity k t - D.lol g m 0 t = D.convDest a t) ∧
      Spec.Feasible s' k (servedBefore s' k g₂ e a c' D) ∧
      cost s k D = cost s' k (servedBefore s' k g₂ e a c' D) + heatToll s.horizon k c A) ∧
    (∀ D, Spec.Feasible s' k D → Spec.Feasible s k (servedAfter s' k g m g₂ e a v c c' D) ∧
      cost s k (servedAfter s' k g m g₂ e a v c c' D) = cost s' k D + heatToll s.horizon k c A) := by
  have hi := Built.inv hb
  have hi' := Built.inv hb'
  refine ⟨fun D hD => ?_, fun D hD => ?_⟩
  · obtain ⟨n, hn⟩ := h.nodeM
    have hbal : ∀ t < s.horizon, val c.quantity k t - D.lol g m 0 t = D.convDest a t :=
      fun t ht => heat_balance h hi hi' hn (hD.balanced g m n hn t ht)
    have ho := before_heat h hbal (heat_ratio h hD.ratios)
    have hs := before_same h hi' D
    refine ⟨hbal, (feasible_heat h hi hi' ho).mp (feasible_congr_flows hs hD), ?_⟩
    rw [← cost_heat h hi hi' ho, ← cost_congr hs]
  · have ho := after_heat h D
    have hs := after_same h hi D
    refine ⟨(feasible_heat h hi hi' ho).mpr (feasible_congr_flows hs hD), ?_⟩
    rw [cost_heat h hi hi' ho, ← cost_congr hs]

/-- C152: the least cost with a load behind a converter is the one with the load before conversion, and what is paid in any case; and the
load gets all that the converter gives -/
theorem C152 (h : Heated s s' k g m g₂ e a A v c c') (hs : Ready s) (hs' : Ready s') (hk : k < s.nbScn)
    (hr : solveLp solver b s = .ok r) (hr' : solveLp solver' b' s' = .ok r')
    (ha : Answers solver s k Cmd.Optimal) (ha' : Answers solver' s' k Cmd.Optimal) :
    cost s k (dispatchOf s r k) = cost s' k (dispatchOf s' r' k) + heatToll s.horizon k c A ∧
      ∀ t < s.horizon, val c.quantity k t - (dispatchOf s r k).lol g m 0 t = (dispatchOf s r k).convDest a t := by
  obtain rfl := Ready.result hs hr
  obtain rfl := Ready.result hs' hr'
  have hi := Built.inv hs.built
  have hi' := Built.inv hs'.built
  have hk' : k < s'.nbScn := h.scenarios ▸ hk
  have ho := optimal_result hi hk _ b (Ready.answer hs hk ha)
  have ho' := optimal_result hi' hk' _ b' (Ready.answer hs' hk' ha')
  have hbal : ∀ t < s.horizon, val c.quantity k t - (dispatchOf s (resultAll s (valsOf solver s) b) k).lol g m 0 t =
      (dispatchOf s (resultAll s (valsOf solver s) b) k).convDest a t := by
    intro t ht
    obtain ⟨n, hn⟩ := h.nodeM
    have hb := ho.1.balance g m n hn t ht
    have hself : selfFlow (dispatchOf s (resultAll s (valsOf solver s) b) k) g m n t = 0 := by
      simp [selfFlow, (heat_loads h hn).2, sumI]
    rw [hself, add_zero] at hb
    exact heat_balance h hi hi' hn hb
  refine ⟨le_antisymm ?_ ?_, hbal⟩
  · have hq := after_heat h (dispatchOf s' (resultAll s' (valsOf solver' s') b') k)
    have hsame := after_same h hi (dispatchOf s' (resultAll s' (valsOf solver' s') b') k)
    rw [cost_congr hsame, ← cost_heat h hi hi' hq]
    exact ho.2 _ ((code_heat h hi hi' hq).mpr (CodeFeasible.congr hsame ho'.1))
  · have hq := before_heat h hbal (heat_ratio h ho.1.ratios)
    have hsame := before_same h hi' (dispatchOf s (resultAll s (valsOf solver s) b) k)
    rw [cost_congr hsame, cost_heat h hi hi' hq]
    have := ho'.2 _ ((code_heat h hi hi' hq).mp (CodeFeasible.congr hsame ho.1))
    linarith

/-! ### A concrete case -/

theorem heated_of (hh : s.horizon = s'.horizon) (hn : s.nbScn = s'.nbScn)
    (h0 : ∃ x ∈ s.networks, x.1 = g ∧ ∃ q ∈ x.2.nodes, q.1 = m)
    (h0' : ∃ x ∈ s.networks, x.1 = g₂ ∧ ∃ q ∈ x.2.nodes, q.1 = e) (ham : ¬ (g₂ = g ∧ e = m))
    (h1 : ∀ x ∈ s.networks, ∀ q ∈ x.2.nodes, ∃ x' ∈ s'.networks, x'.1 = x.1 ∧ ∃ q' ∈ x'.2.nodes, q'.1 = q.1 ∧
      q.2.productions = q'.2.productions ∧ q.2.storages = q'.2.storages ∧ q.2.links = q'.2.links ∧
      ((x.1 = g ∧ q.1 = m → q.2.consumptions = [c]) ∧ q'.2.consumptions = if x.1 = g ∧ q.1 = m then [] else
        q.2.consumptions ++ if x.1 = g₂ ∧ q.1 = e then [c'] else []) ∧
      (x.1 = g ∧ q.1 = m → q'.2.consumptions = [] ∧ q'.2.productions = [] ∧ q'.2.storages = [] ∧ q'.2.links = []))
    (h1' : ∀ x' ∈ s'.networks, ∀ q' ∈ x'.2.nodes, ∃ x ∈ s.networks, x.1 = x'.1 ∧ ∃ q ∈ x.2.nodes, q.1 = q'.1)
    (hi' : StudyInv s')
    (h2 : s.converters = s'.converters ++ [(a, A)]) (hta : A.srcRatios = [([g₂, e], v)]) (hgi : A.destNetwork = g ∧ A.destNode = m)
    (h3 : ∀ x ∈ s'.networks, x.1 = g → ∀ q ∈ x.2.nodes, ∀ y ∈ q.2.links, y.dest ≠ m)
    (h4 : ∀ q ∈ s'.converters, ¬ (q.2.destNetwork = g ∧ q.2.destNode = m) ∧ ∀ x ∈ q.2.srcRatios, x.1 ≠ [g, m])
    (h6 : ∀ t < s.horizon, 0 < val v k t)
    (h7 : ∀ t < s.horizon, val c'.quantity k t = min (val c.quantity k t) (fval A.max k t) / val v k t)
    (h8 : ∀ t < s.horizon, val c'.cost k t = (val c.cost k t - fval A.cost k t) * val v k t) :
    Heated s s' k g m g₂ e a A v c c' := by
  have hnodes : ∀ g' d n, HasNode s g' d n → ∃ n', HasNode s' g' d n' ∧ HeatNode g m g₂ e c c' g' d n n' := by
    rintro g' d n ⟨net, hg, hd⟩
    obtain ⟨⟨g3, net'⟩, hg', e1, ⟨d2, n'⟩, hd', e', a1, a2, a3, a4, a5⟩ := h1 _ hg _ hd
    dsimp only at e1 e' a1 a2 a3 a4 a5
    subst e1 e'
    refine ⟨n', ⟨net', hg', hd'⟩, a1, a2, a3, ?_, a5⟩
    by_cases c1 : g3 = g ∧ d2 = m
    · have c2 : ¬ (g3 = g₂ ∧ d2 = e) := fun x => ham ⟨x.1.symm.trans c1.1, x.2.symm.trans c1.2⟩
      rw [if_pos c1] at a4
      exact ⟨[], by rw [if_pos c1, a4.1 c1]; rfl, by rw [if_neg c2, a4.2]; rfl⟩
    · rw [if_neg c1] at a4
      exact ⟨n.consumptions, by rw [if_neg c1, List.append_nil], a4.2⟩
  refine ⟨hh, hn, ?_, ?_, ham, hnodes, ?_, h2, hta, hgi, ?_, h4, h6, h7, h8⟩
  · obtain ⟨⟨_, net⟩, hg, rfl, ⟨_, n⟩, hd, rfl⟩ := h0
    exact ⟨n, net, hg, hd⟩
  · obtain ⟨⟨_, net⟩, hg, rfl, ⟨_, n⟩, hd, rfl⟩ := h0'
    exact ⟨n, net, hg, hd⟩
  · rintro g' d n' ⟨net, hg, hd⟩
    obtain ⟨⟨g3, net'⟩, hg', e1, ⟨d2, n⟩, hd', e'⟩ := h1' _ hg _ hd
    dsimp only at e1 e'
    subst e1 e'
    obtain ⟨n2, hn2, he⟩ := hnodes g3 d2 n ⟨net', hg', hd'⟩
    obtain rfl := hasNode_unique hi' hn2 ⟨net, hg, hd⟩
    exact ⟨n, ⟨net', hg', hd'⟩, he⟩
  · rintro d n' ⟨net, hg, hd⟩ x hx
    exact h3 _ hg rfl _ hd x hx

/-- a town with a load and a production; a pump makes heat of power, three for one -/
def pumpStudy : Study := made 1 1
  [.studyNetwork "power", .netNode 0 "p", .nodeConsumption 0 "load" (.num 1000) (.num 30), .nodeProduction 0 "gas" (.num 70) (.num 40),
   .nodeToConverter 0 "pump" (.num 3),
   .studyNetwork "heat", .netNode 1 "h", .nodeConsumption 1 "homes" (.num 500) (.num 40),
   .nodeConverter 1 "pump" "heat" "h" (.num 36) (.num 2)]

/-- the power the pump asks for, as a load -/
def plugStudy : Study := made 1 1
  [.studyNetwork "power", .netNode 0 "p", .nodeConsumption 0 "load" (.num 1000) (.num 30), .nodeProduction 0 "gas" (.num 70) (.num 40),
   .nodeConsumption 0 "homes" (.num 1494) (.num 12), .studyNetwork "heat", .netNode 1 "h"]

theorem pumpStudy_ready : Ready pumpStudy where
  built := ⟨1, 1, _, rawCalls_of (by decide +kernel), rfl⟩
  complete := by unfold CompleteConverters; decide +kernel
  ratios := RatiosNonzero.usable (by unfold RatiosNonzero; decide +kernel)
  clean := cleanSources_of (by decide +kernel)

theorem plugStudy_ready : Ready plugStudy where
  built := ⟨1, 1, _, rawCalls_of (by decide +kernel), rfl⟩
  complete := by unfold CompleteConverters; decide +kernel
  ratios := RatiosNonzero.usable (by unfold RatiosNonzero; decide +kernel)
  clean := cleanSources_of (by decide +kernel)

set_option synthInstance.maxSize 1024 in
set_option synthInstance.maxHeartbeats 200000 in
theorem pump_plug : Heated pumpStudy plugStudy 0 "heat" "h" "power" "p" "pump"
    ⟨"pump", [(["power", "p"], number 3)], "heat", "h", .val (number 2), .val (number 36)⟩ (number 3)
    ⟨number 500, number 40, "homes"⟩ ⟨number 1494, number 12, "homes"⟩ :=
  heated_of (by decide +kernel) (by decide +kernel) (by decide +kernel) (by decide +kernel) (by decide) (by decide +kernel)
    (by decide +kernel) (Built.inv plugStudy_ready.built) (by decide +kernel) rfl ⟨rfl, rfl⟩ (by decide +kernel) (by decide +kernel)
    (by decide +kernel) (by decide +kernel) (by decide +kernel)

theorem pump_toll : heatToll 1 0 ⟨number 500, number 40, "homes"⟩
    ⟨"pump", [(["power", "p"], number 3)], "heat", "h", .val (number 2), .val (number 36)⟩ = 2072 := by decide +kernel

/-- the hypotheses are met: homes with a pump cost 2072 more than the power the pump asks for, whatever the optimal solvers -/
example (solver solver' : Solver) (r r' : Result) (hr : solveLp solver ⟨[], [], 0, 0⟩ pumpStudy = .ok r)
    (hr' : solveLp solver' ⟨[], [], 0, 0⟩ plugStudy = .ok r') (ha : Answers solver pumpStudy 0 Cmd.Optimal)
    (ha' : Answers solver' plugStudy 0 Cmd.Optimal) :
    cost pumpStudy 0 (dispatchOf pumpStudy r 0) = cost plugStudy 0 (dispatchOf plugStudy r' 0) + 2072 := by
  rw [← pump_toll]
  exact (C152 pump_plug pumpStudy_ready plugStudy_ready (by decide +kernel) hr hr' ha ha').1

end Hadar.Props
