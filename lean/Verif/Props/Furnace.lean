import Verif.Proofs.Furnace
import Verif.Props.Passage

/-!
# C151: a production behind a converter
-/

namespace Hadar.Props

open Hadar Spec

variable {s s' : Study} {solver solver' : Solver} {b b' : Benchmark} {r r' : Result} {k : ℕ} {g m g₂ e a : String} {A : Converter}
  {v : NumVal} {p p' : Production}

/-- C151, for the documented problem: what is made of fuel can be produced after conversion, and the other way round, at the same cost -/
theorem C151_feasible (h : Burnt s s' k g m g₂ e a A v p p') (hb : Built s) (hb' : Built s') :
    (∀ D, Spec.Feasible s k D → (∀ t < s.horizon, D.prod g m 0 t = D.convSrc a (g, m) t) ∧
      Spec.Feasible s' k (producedHere s' g₂ e a D) ∧ cost s' k (producedHere s' g₂ e a D) = cost s k D) ∧
    (∀ D, Spec.Feasible s' k D → Spec.Feasible s k (madeOfFuel s' k g m g₂ e a v D) ∧
      cost s k (madeOfFuel s' k g m g₂ e a v D) = cost s' k D) := by
  have hi := Built.inv hb
  have hi' := Built.inv hb'
  refine ⟨fun D hD => ?_, fun D hD => ?_⟩
  · obtain ⟨n, hn⟩ := h.nodeM
    have hbal : ∀ t < s.horizon, D.prod g m 0 t = D.convSrc a (g, m) t :=
      fun t ht => fuel_balance h hi hi' hn (hD.balanced g m n hn t ht)
    have ho := here_power h hbal (fuel_ratio h hD.ratios)
    have hs := here_same h hi' D
    refine ⟨hbal, (feasible_fuel h hi hi' ho).mp (feasible_congr_flows hs hD), ?_⟩
    rw [← cost_fuel h hi hi' ho, ← cost_congr hs]
  · have ho := made_power h D
    have hs := made_same h hi D
    refine ⟨(feasible_fuel h hi hi' ho).mpr (feasible_congr_flows hs hD), ?_⟩
    rw [cost_fuel h hi hi' ho, ← cost_congr hs]

/-- C151: fuel with a converter and a production after conversion, of what both can give and of the cost of the converter and of the fuel,
give solutions of the same cost; and the converter takes all fuel that is produced -/
theorem C151 (h : Burnt s s' k g m g₂ e a A v p p') (hs : Ready s) (hs' : Ready s') (hk : k < s.nbScn)
    (hr : solveLp solver b s = .ok r) (hr' : solveLp solver' b' s' = .ok r')
    (ha : Answers solver s k Cmd.Optimal) (ha' : Answers solver' s' k Cmd.Optimal) :
    cost s k (dispatchOf s r k) = cost s' k (dispatchOf s' r' k) ∧
      ∀ t < s.horizon, (dispatchOf s r k).prod g m 0 t = (dispatchOf s r k).convSrc a (g, m) t := by
  obtain rfl := Ready.result hs hr
  obtain rfl := Ready.result hs' hr'
  have hi := Built.inv hs.built
  have hi' := Built.inv hs'.built
  have hk' : k < s'.nbScn := h.scenarios ▸ hk
  have ho := optimal_result hi hk _ b (Ready.answer hs hk ha)
  have ho' := optimal_result hi' hk' _ b' (Ready.answer hs' hk' ha')
  have hbal : ∀ t < s.horizon, (dispatchOf s (resultAll s (valsOf solver s) b) k).prod g m 0 t =
      (dispatchOf s (resultAll s (valsOf solver s) b) k).convSrc a (g, m) t := by
    intro t ht
    obtain ⟨n, hn⟩ := h.nodeM
    have hb := ho.1.balance g m n hn t ht
    have hself : selfFlow (dispatchOf s (resultAll s (valsOf solver s) b) k) g m n t = 0 := by
      simp [selfFlow, (fuel_prods h hn).2, sumI]
    rw [hself, add_zero] at hb
    exact fuel_balance h hi hi' hn hb
  refine ⟨le_antisymm ?_ ?_, hbal⟩
  · have hq := made_power h (dispatchOf s' (resultAll s' (valsOf solver' s') b') k)
    have hsame := made_same h hi (dispatchOf s' (resultAll s' (valsOf solver' s') b') k)
    rw [cost_congr hsame, ← cost_fuel h hi hi' hq]
    exact ho.2 _ ((code_fuel h hi hi' hq).mpr (CodeFeasible.congr hsame ho'.1))
  · have hq := here_power h hbal (fuel_ratio h ho.1.ratios)
    have hsame := here_same h hi' (dispatchOf s (resultAll s (valsOf solver s) b) k)
    rw [cost_congr hsame, cost_fuel h hi hi' hq]
    exact ho'.2 _ ((code_fuel h hi hi' hq).mp (CodeFeasible.congr hsame ho.1))

/-! ### A concrete case -/

theorem burnt_of (hh : s.horizon = s'.horizon) (hn : s.nbScn = s'.nbScn)
    (h0 : ∃ x ∈ s.networks, x.1 = g ∧ ∃ q ∈ x.2.nodes, q.1 = m)
    (h0' : ∃ x ∈ s.networks, x.1 = g₂ ∧ ∃ q ∈ x.2.nodes, q.1 = e) (ham : ¬ (g₂ = g ∧ e = m))
    (h1 : ∀ x ∈ s.networks, ∀ q ∈ x.2.nodes, ∃ x' ∈ s'.networks, x'.1 = x.1 ∧ ∃ q' ∈ x'.2.nodes, q'.1 = q.1 ∧
      q.2.consumptions = q'.2.consumptions ∧ q.2.storages = q'.2.storages ∧ q.2.links = q'.2.links ∧
      ((x.1 = g ∧ q.1 = m → q.2.productions = [p]) ∧ q'.2.productions = if x.1 = g ∧ q.1 = m then [] else
        q.2.productions ++ if x.1 = g₂ ∧ q.1 = e then [p'] else []) ∧
      (x.1 = g ∧ q.1 = m → q'.2.consumptions = [] ∧ q'.2.productions = [] ∧ q'.2.storages = [] ∧ q'.2.links = []))
    (h1' : ∀ x' ∈ s'.networks, ∀ q' ∈ x'.2.nodes, ∃ x ∈ s.networks, x.1 = x'.1 ∧ ∃ q ∈ x.2.nodes, q.1 = q'.1)
    (hi' : StudyInv s')
    (h2 : s.converters = s'.converters ++ [(a, A)]) (hta : A.srcRatios = [([g, m], v)]) (hgi : A.destNetwork = g₂ ∧ A.destNode = e)
    (h3 : ∀ x ∈ s'.networks, x.1 = g → ∀ q ∈ x.2.nodes, ∀ y ∈ q.2.links, y.dest ≠ m)
    (h4 : ∀ q ∈ s'.converters, ¬ (q.2.destNetwork = g ∧ q.2.destNode = m) ∧ ∀ x ∈ q.2.srcRatios, x.1 ≠ [g, m])
    (h6 : ∀ t < s.horizon, 0 < val v k t)
    (h7 : ∀ t < s.horizon, val p'.quantity k t = min (val p.quantity k t * val v k t) (fval A.max k t))
    (h8 : ∀ t < s.horizon, val p'.cost k t = fval A.cost k t + val p.cost k t / val v k t) :
    Burnt s s' k g m g₂ e a A v p p' := by
  have hnodes : ∀ g' d n, HasNode s g' d n → ∃ n', HasNode s' g' d n' ∧ FuelNode g m g₂ e p p' g' d n n' := by
    rintro g' d n ⟨net, hg, hd⟩
    obtain ⟨⟨g3, net'⟩, hg', e1, ⟨d2, n'⟩, hd', e', a1, a2, a3, a4, a5⟩ := h1 _ hg _ hd
    dsimp only at e1 e' a1 a2 a3 a4 a5
    subst e1 e'
    refine ⟨n', ⟨net', hg', hd'⟩, a1, a2, a3, ?_, a5⟩
    by_cases c1 : g3 = g ∧ d2 = m
    · have c2 : ¬ (g3 = g₂ ∧ d2 = e) := fun x => ham ⟨x.1.symm.trans c1.1, x.2.symm.trans c1.2⟩
      rw [if_pos c1] at a4
      exact ⟨[], by rw [if_pos c1, a4.1 c1]; rfl, by rw [if_neg c2, a4.2]; rfl⟩
    · rw [if_neg c1] at a4
      exact ⟨n.productions, by rw [if_neg c1, List.append_nil], a4.2⟩
  refine ⟨hh, hn, ?_, ?_, ham, hnodes, ?_, h2, hta, hgi, ?_, h4, h6, h7, h8⟩
  · obtain ⟨⟨_, net⟩, hg, rfl, ⟨_, n⟩, hd, rfl⟩ := h0
    exact ⟨n, net, hg, hd⟩
  · obtain ⟨⟨_, net⟩, hg, rfl, ⟨_, n⟩, hd, rfl⟩ := h0'
    exact ⟨n, net, hg, hd⟩
  · rintro g' d n' ⟨net, hg, hd⟩
    obtain ⟨⟨g3, net'⟩, hg', e1, ⟨d2, n⟩, hd', e'⟩ := h1' _ hg _ hd
    dsimp only at e1 e'
    subst e1 e'
    obtain ⟨n2, hn2, he⟩ := hnodes g3 d2 n ⟨net', hg', hd'⟩
    obtain rfl := hasNode_unique hi' hn2 ⟨net, hg, hd⟩
    exact ⟨n, ⟨net', hg', hd'⟩, he⟩
  · rintro d n' ⟨net, hg, hd⟩ x hx
    exact h3 _ hg rfl _ hd x hx

/-- a load with wind; gas, of which a turbine makes power -/
def gasStudy : Study := made 1 1
  [.studyNetwork "gas", .netNode 0 "g", .nodeProduction 0 "well" (.num 10) (.num 50), .nodeToConverter 0 "turbine" (.num (1/2)),
   .studyNetwork "power", .netNode 1 "p", .nodeConsumption 1 "load" (.num 1000) (.num 30), .nodeProduction 1 "wind" (.num 1) (.num 5),
   .nodeConverter 1 "turbine" "power" "p" (.num 40) (.num 3)]

/-- power made of gas, at the node of the load -/
def burntStudy : Study := made 1 1
  [.studyNetwork "gas", .netNode 0 "g",
   .studyNetwork "power", .netNode 1 "p", .nodeConsumption 1 "load" (.num 1000) (.num 30), .nodeProduction 1 "wind" (.num 1) (.num 5),
   .nodeProduction 1 "turbine" (.num 23) (.num 25)]

theorem gasStudy_ready : Ready gasStudy where
  built := ⟨1, 1, _, rawCalls_of (by decide +kernel), rfl⟩
  complete := by unfold CompleteConverters; decide +kernel
  ratios := RatiosNonzero.usable (by unfold RatiosNonzero; decide +kernel)
  clean := cleanSources_of (by decide +kernel)

theorem burntStudy_ready : Ready burntStudy where
  built := ⟨1, 1, _, rawCalls_of (by decide +kernel), rfl⟩
  complete := by unfold CompleteConverters; decide +kernel
  ratios := RatiosNonzero.usable (by unfold RatiosNonzero; decide +kernel)
  clean := cleanSources_of (by decide +kernel)

set_option synthInstance.maxSize 1024 in
set_option synthInstance.maxHeartbeats 200000 in
theorem gas_burnt : Burnt gasStudy burntStudy 0 "gas" "g" "power" "p" "turbine"
    ⟨"turbine", [(["gas", "g"], number (1/2))], "power", "p", .val (number 3), .val (number 40)⟩ (number (1/2))
    ⟨"well", number 10, number 50⟩ ⟨"turbine", number 23, number 25⟩ :=
  burnt_of (by decide +kernel) (by decide +kernel) (by decide +kernel) (by decide +kernel) (by decide) (by decide +kernel)
    (by decide +kernel) (Built.inv burntStudy_ready.built) (by decide +kernel) rfl ⟨rfl, rfl⟩ (by decide +kernel) (by decide +kernel)
    (by decide +kernel) (by decide +kernel) (by decide +kernel)

/-- the hypotheses are met: with gas or with what is made of it, whatever the optimal solvers -/
example (solver solver' : Solver) (r r' : Result) (hr : solveLp solver ⟨[], [], 0, 0⟩ gasStudy = .ok r)
    (hr' : solveLp solver' ⟨[], [], 0, 0⟩ burntStudy = .ok r') (ha : Answers solver gasStudy 0 Cmd.Optimal)
    (ha' : Answers solver' burntStudy 0 Cmd.Optimal) :
    cost gasStudy 0 (dispatchOf gasStudy r 0) = cost burntStudy 0 (dispatchOf burntStudy r' 0) :=
  (C151 gas_burnt gasStudy_ready burntStudy_ready (by decide +kernel) hr hr' ha ha').1

/-- and dispatches are carried over -/
example (D : Dispatch) (hD : Spec.Feasible burntStudy 0 D) :
    Spec.Feasible gasStudy 0 (madeOfFuel burntStudy 0 "gas" "g" "power" "p" "turbine" (number (1/2)) D) :=
  ((C151_feasible gas_burnt gasStudy_ready.built burntStudy_ready.built).2 D hD).1

end Hadar.Props
