import Verif.Proofs.Plant
import Verif.Props.Passage

/-!
# C148: a production behind a link
-/

namespace Hadar.Props

open Hadar Spec

variable {s s' : Study} {solver solver' : Solver} {b b' : Benchmark} {r r' : Result} {k : ℕ} {g m : String} {p p' : Production} {l : Link}

/-- C148, for the documented problem: what is produced behind the link can be produced at its end, and the other way round, at the same
cost -/
theorem C148_feasible (h : PlantMoved s s' k g m p l p') (hb : Built s) (hb' : Built s') :
    (∀ D, Spec.Feasible s k D → (∀ t < s.horizon, D.prod g m 0 t = D.link g m 0 t) ∧ Spec.Feasible s' k (atEnd s' g m l.dest D) ∧
      cost s' k (atEnd s' g m l.dest D) = cost s k D) ∧
    (∀ D, Spec.Feasible s' k D → Spec.Feasible s k (behind s' g m l.dest D) ∧ cost s k (behind s' g m l.dest D) = cost s' k D) := by
  have hi := Built.inv hb
  have hi' := Built.inv hb'
  refine ⟨fun D hD => ?_, fun D hD => ?_⟩
  · obtain ⟨n, hn⟩ := h.nodeM
    have hbal : ∀ t < s.horizon, D.prod g m 0 t = D.link g m 0 t :=
      fun t ht => plant_balance h hi hi' hn (hD.balanced g m n hn t ht)
    have ho := atEnd_output h fun t ht => hbal t (h.horizon ▸ ht)
    have hs := atEnd_same h hi hi' D
    refine ⟨hbal, (feasible_plant h hi hi' ho).mp (feasible_congr_flows hs hD), ?_⟩
    rw [← cost_plant h hi hi' ho, ← cost_congr hs]
  · have ho := behind_output h D
    have hs := behind_same h D
    refine ⟨(feasible_plant h hi hi' ho).mpr (feasible_congr_flows hs hD), ?_⟩
    rw [cost_plant h hi hi' ho, ← cost_congr hs]

/-- C148: a production behind a link and one at the end of the link, of the smaller quantity and of both costs, give solutions of the same
cost; and all that is produced behind the link goes through it -/
theorem C148 (h : PlantMoved s s' k g m p l p') (hs : Ready s) (hs' : Ready s') (hk : k < s.nbScn)
    (hr : solveLp solver b s = .ok r) (hr' : solveLp solver' b' s' = .ok r')
    (ha : Answers solver s k Cmd.Optimal) (ha' : Answers solver' s' k Cmd.Optimal) :
    cost s k (dispatchOf s r k) = cost s' k (dispatchOf s' r' k) ∧
      ∀ t < s.horizon, (dispatchOf s r k).prod g m 0 t = (dispatchOf s r k).link g m 0 t := by
  obtain rfl := Ready.result hs hr
  obtain rfl := Ready.result hs' hr'
  have hi := Built.inv hs.built
  have hi' := Built.inv hs'.built
  have hk' : k < s'.nbScn := h.scenarios ▸ hk
  have ho := optimal_result hi hk _ b (Ready.answer hs hk ha)
  have ho' := optimal_result hi' hk' _ b' (Ready.answer hs' hk' ha')
  have hbal : ∀ t < s.horizon, (dispatchOf s (resultAll s (valsOf solver s) b) k).prod g m 0 t =
      (dispatchOf s (resultAll s (valsOf solver s) b) k).link g m 0 t := by
    intro t ht
    obtain ⟨n, hn⟩ := h.nodeM
    have hb := ho.1.balance g m n hn t ht
    have hself : selfFlow (dispatchOf s (resultAll s (valsOf solver s) b) k) g m n t = 0 := by
      simp [selfFlow, (plant_links h hn).1, sumI, h.apart]
    rw [hself, add_zero] at hb
    exact plant_balance h hi hi' hn hb
  refine ⟨le_antisymm ?_ ?_, hbal⟩
  · have hq := behind_output h (dispatchOf s' (resultAll s' (valsOf solver' s') b') k)
    have hsame := behind_same h (dispatchOf s' (resultAll s' (valsOf solver' s') b') k)
    rw [cost_congr hsame, ← cost_plant h hi hi' hq]
    exact ho.2 _ ((code_plant h hi hi' hq).mpr (CodeFeasible.congr hsame ho'.1))
  · have hq := atEnd_output h fun t ht => hbal t (h.horizon ▸ ht)
    have hsame := atEnd_same h hi hi' (dispatchOf s (resultAll s (valsOf solver s) b) k)
    rw [cost_congr hsame, cost_plant h hi hi' hq]
    exact ho'.2 _ ((code_plant h hi hi' hq).mp (CodeFeasible.congr hsame ho.1))

/-! ### A concrete case -/

theorem plantMoved_of (hh : s.horizon = s'.horizon) (hn : s.nbScn = s'.nbScn)
    (h0 : ∃ x ∈ s.networks, x.1 = g ∧ ∃ q ∈ x.2.nodes, q.1 = m)
    (h0' : ∃ x ∈ s.networks, x.1 = g ∧ ∃ q ∈ x.2.nodes, q.1 = l.dest) (ham : l.dest ≠ m)
    (h1 : ∀ x ∈ s.networks, ∀ q ∈ x.2.nodes, ∃ x' ∈ s'.networks, x'.1 = x.1 ∧ ∃ q' ∈ x'.2.nodes, q'.1 = q.1 ∧
      q.2.consumptions = q'.2.consumptions ∧ q.2.storages = q'.2.storages ∧
      q.2.links = q'.2.links ++ (if x.1 = g ∧ q.1 = m then [l] else []) ∧
      ((x.1 = g ∧ q.1 = m → q.2.productions = [p]) ∧ q'.2.productions = if x.1 = g ∧ q.1 = m then [] else
        q.2.productions ++ if x.1 = g ∧ q.1 = l.dest then [p'] else []) ∧
      (x.1 = g ∧ q.1 = m → q'.2.consumptions = [] ∧ q'.2.productions = [] ∧ q'.2.storages = [] ∧ q'.2.links = []))
    (h1' : ∀ x' ∈ s'.networks, ∀ q' ∈ x'.2.nodes, ∃ x ∈ s.networks, x.1 = x'.1 ∧ ∃ q ∈ x.2.nodes, q.1 = q'.1)
    (hi' : StudyInv s')
    (h2 : s.converters = s'.converters)
    (h3 : ∀ x ∈ s'.networks, x.1 = g → ∀ q ∈ x.2.nodes, ∀ y ∈ q.2.links, y.dest ≠ m)
    (h4 : ∀ q ∈ s'.converters, ¬ (q.2.destNetwork = g ∧ q.2.destNode = m) ∧ ∀ r ∈ q.2.srcRatios, r.1 ≠ [g, m])
    (h7 : ∀ t < s.horizon, val p'.quantity k t = min (val p.quantity k t) (val l.quantity k t))
    (h8 : ∀ t < s.horizon, val p'.cost k t = val p.cost k t + val l.cost k t) :
    PlantMoved s s' k g m p l p' := by
  have hnodes : ∀ g' d n, HasNode s g' d n → ∃ n', HasNode s' g' d n' ∧ PlantNode g m p l p' g' d n n' := by
    rintro g' d n ⟨net, hg, hd⟩
    obtain ⟨⟨g2, net'⟩, hg', e, ⟨d2, n'⟩, hd', e', a1, a2, a3, a4, a5⟩ := h1 _ hg _ hd
    dsimp only at e e' a1 a2 a3 a4 a5
    subst e e'
    refine ⟨n', ⟨net', hg', hd'⟩, a1, a2, a3, ?_, a5⟩
    by_cases c1 : g2 = g ∧ d2 = m
    · have c2 : ¬ (g2 = g ∧ d2 = l.dest) := fun e => ham (e.2.symm.trans c1.2)
      rw [if_pos c1] at a4
      exact ⟨[], by rw [if_pos c1, a4.1 c1]; rfl, by rw [if_neg c2, a4.2]; rfl⟩
    · rw [if_neg c1] at a4
      exact ⟨n.productions, by rw [if_neg c1, List.append_nil], a4.2⟩
  refine ⟨hh, hn, ?_, ?_, ham, hnodes, ?_, h2, ?_, h4, h7, h8⟩
  · obtain ⟨⟨_, net⟩, hg, rfl, ⟨_, n⟩, hd, rfl⟩ := h0
    exact ⟨n, net, hg, hd⟩
  · obtain ⟨⟨_, net⟩, hg, rfl, ⟨_, n⟩, hd, e⟩ := h0'
    dsimp only at e
    subst e
    exact ⟨n, net, hg, hd⟩
  · rintro g' d n' ⟨net, hg, hd⟩
    obtain ⟨⟨g2, net'⟩, hg', e, ⟨d2, n⟩, hd', e'⟩ := h1' _ hg _ hd
    dsimp only at e e'
    subst e e'
    obtain ⟨n2, hn2, he⟩ := hnodes g2 d2 n ⟨net', hg', hd'⟩
    obtain rfl := hasNode_unique hi' hn2 ⟨net, hg, hd⟩
    exact ⟨n, ⟨net', hg', hd'⟩, he⟩
  · rintro d n' ⟨net, hg, hd⟩ x hx
    exact h3 _ hg rfl _ hd x hx

/-- a load with a production; a wind farm at sea, at the end of a cable -/
def seaStudy : Study := made 1 1
  [.studyNetwork "n", .netNode 0 "a", .nodeConsumption 0 "load" (.num 1000) (.num 30), .nodeProduction 0 "gas" (.num 70) (.num 20),
   .nodeNode 0 "sea", .nodeProduction 0 "wind" (.num 1) (.num 25), .nodeLink 0 "sea" "a" (.num 2) (.num 15)]

/-- the wind farm ashore -/
def shoreStudy : Study := made 1 1
  [.studyNetwork "n", .netNode 0 "a", .nodeConsumption 0 "load" (.num 1000) (.num 30), .nodeProduction 0 "gas" (.num 70) (.num 20),
   .nodeProduction 0 "wind" (.num 3) (.num 15), .nodeNode 0 "sea"]

theorem seaStudy_ready : Ready seaStudy where
  built := ⟨1, 1, _, rawCalls_of (by decide +kernel), rfl⟩
  complete := by unfold CompleteConverters; decide +kernel
  ratios := RatiosNonzero.usable (by unfold RatiosNonzero; decide +kernel)
  clean := cleanSources_of (by decide +kernel)

theorem shoreStudy_ready : Ready shoreStudy where
  built := ⟨1, 1, _, rawCalls_of (by decide +kernel), rfl⟩
  complete := by unfold CompleteConverters; decide +kernel
  ratios := RatiosNonzero.usable (by unfold RatiosNonzero; decide +kernel)
  clean := cleanSources_of (by decide +kernel)

set_option synthInstance.maxSize 1024 in
set_option synthInstance.maxHeartbeats 200000 in
theorem sea_shore : PlantMoved seaStudy shoreStudy 0 "n" "sea" ⟨"wind", number 1, number 25⟩ ⟨"a", number 15, number 2⟩
    ⟨"wind", number 3, number 15⟩ :=
  plantMoved_of (by decide +kernel) (by decide +kernel) (by decide +kernel) (by decide +kernel) (by decide) (by decide +kernel)
    (by decide +kernel) (Built.inv shoreStudy_ready.built) (by decide +kernel) (by decide +kernel) (by decide +kernel)
    (by decide +kernel) (by decide +kernel)

/-- the hypotheses are met: at sea or ashore, whatever the optimal solvers -/
example (solver solver' : Solver) (r r' : Result) (hr : solveLp solver ⟨[], [], 0, 0⟩ seaStudy = .ok r)
    (hr' : solveLp solver' ⟨[], [], 0, 0⟩ shoreStudy = .ok r') (ha : Answers solver seaStudy 0 Cmd.Optimal)
    (ha' : Answers solver' shoreStudy 0 Cmd.Optimal) :
    cost seaStudy 0 (dispatchOf seaStudy r 0) = cost shoreStudy 0 (dispatchOf shoreStudy r' 0) :=
  (C148 sea_shore seaStudy_ready shoreStudy_ready (by decide +kernel) hr hr' ha ha').1

/-- and dispatches are carried over -/
example (D : Dispatch) (hD : Spec.Feasible shoreStudy 0 D) : Spec.Feasible seaStudy 0 (behind shoreStudy "n" "sea" "a" D) :=
  ((C148_feasible sea_shore seaStudy_ready.built shoreStudy_ready.built).2 D hD).1

end Hadar.Props
