import Verif.Proofs.Hamlet
import Verif.Props.Passage

/-!
# C149: a load behind a link
-/

namespace Hadar.Props

open Hadar Spec

variable {s s' : Study} {solver solver' : Solver} {b b' : Benchmark} {r r' : Result} {k : ℕ} {g m e : String} {c c' : Consumption}
  {l : Link}

/-- C149, for the documented problem: what is served behind the link can be served at its start, and the other way round, and costs change
by what is paid in any case -/
theorem C149_feasible (h : HamletMoved s s' k g m e c l c') (hb : Built s) (hb' : Built s') :
    (∀ D, Spec.Feasible s k D → (∀ t < s.horizon, val c.quantity k t - D.lol g m 0 t = D.link g e (roadAt s' g e) t) ∧
      Spec.Feasible s' k (nearer s' k g e c' D) ∧ cost s k D = cost s' k (nearer s' k g e c' D) + hamletToll s.horizon k c l) ∧
    (∀ D, Spec.Feasible s' k D → Spec.Feasible s k (farther s' k g m e c c' D) ∧
      cost s k (farther s' k g m e c c' D) = cost s' k D + hamletToll s.horizon k c l) := by
  have hi := Built.inv hb
  have hi' := Built.inv hb'
  refine ⟨fun D hD => ?_, fun D hD => ?_⟩
  · obtain ⟨n, hn⟩ := h.nodeM
    have hbal : ∀ t < s.horizon, val c.quantity k t - D.lol g m 0 t = D.link g e (roadAt s' g e) t :=
      fun t ht => hamlet_balance h hi hi' hn (hD.balanced g m n hn t ht)
    have ho := nearer_served h fun t ht => hbal t (h.horizon ▸ ht)
    have hs := nearer_same (c' := c') (k := k) h hi' D
    refine ⟨hbal, (feasible_hamlet h hi hi' ho).mp (feasible_congr_flows hs hD), ?_⟩
    rw [← cost_hamlet h hi hi' ho, ← cost_congr hs]
  · have ho := farther_served h D
    have hs := farther_same h hi' D
    refine ⟨(feasible_hamlet h hi hi' ho).mpr (feasible_congr_flows hs hD), ?_⟩
    rw [cost_hamlet h hi hi' ho, ← cost_congr hs]

/-- C149: the least cost with a load behind a link is the one with the load at the start of the link, which asks for what the link can bring
and is worth that much less than the link costs, and what is paid in any case; and all that is served behind the link came through it -/
theorem C149 (h : HamletMoved s s' k g m e c l c') (hs : Ready s) (hs' : Ready s') (hk : k < s.nbScn)
    (hr : solveLp solver b s = .ok r) (hr' : solveLp solver' b' s' = .ok r')
    (ha : Answers solver s k Cmd.Optimal) (ha' : Answers solver' s' k Cmd.Optimal) :
    cost s k (dispatchOf s r k) = cost s' k (dispatchOf s' r' k) + hamletToll s.horizon k c l ∧
      ∀ t < s.horizon, val c.quantity k t - (dispatchOf s r k).lol g m 0 t = (dispatchOf s r k).link g e (roadAt s' g e) t := by
  obtain rfl := Ready.result hs hr
  obtain rfl := Ready.result hs' hr'
  have hi := Built.inv hs.built
  have hi' := Built.inv hs'.built
  have hk' : k < s'.nbScn := h.scenarios ▸ hk
  have ho := optimal_result hi hk _ b (Ready.answer hs hk ha)
  have ho' := optimal_result hi' hk' _ b' (Ready.answer hs' hk' ha')
  have hbal : ∀ t < s.horizon, val c.quantity k t - (dispatchOf s (resultAll s (valsOf solver s) b) k).lol g m 0 t =
      (dispatchOf s (resultAll s (valsOf solver s) b) k).link g e (roadAt s' g e) t := by
    intro t ht
    obtain ⟨n, hn⟩ := h.nodeM
    have hb := ho.1.balance g m n hn t ht
    have hself : selfFlow (dispatchOf s (resultAll s (valsOf solver s) b) k) g m n t = 0 := by
      simp [selfFlow, (hamlet_loads h hn).2, sumI]
    rw [hself, add_zero] at hb
    exact hamlet_balance h hi hi' hn hb
  refine ⟨le_antisymm ?_ ?_, hbal⟩
  · have hq := farther_served h (dispatchOf s' (resultAll s' (valsOf solver' s') b') k)
    have hsame := farther_same (k := k) (c := c) (c' := c') h hi' (dispatchOf s' (resultAll s' (valsOf solver' s') b') k)
    rw [cost_congr hsame, ← cost_hamlet h hi hi' hq]
    exact ho.2 _ ((code_hamlet h hi hi' hq).mpr (CodeFeasible.congr hsame ho'.1))
  · have hq := nearer_served h fun t ht => hbal t (h.horizon ▸ ht)
    have hsame := nearer_same (k := k) (c' := c') h hi' (dispatchOf s (resultAll s (valsOf solver s) b) k)
    rw [cost_congr hsame, cost_hamlet h hi hi' hq]
    have := ho'.2 _ ((code_hamlet h hi hi' hq).mp (CodeFeasible.congr hsame ho.1))
    linarith

/-! ### A concrete case -/

theorem hamletMoved_of (hh : s.horizon = s'.horizon) (hn : s.nbScn = s'.nbScn)
    (h0 : ∃ x ∈ s.networks, x.1 = g ∧ ∃ q ∈ x.2.nodes, q.1 = m)
    (h0' : ∃ x ∈ s.networks, x.1 = g ∧ ∃ q ∈ x.2.nodes, q.1 = e) (ham : e ≠ m) (hgo : l.dest = m)
    (h1 : ∀ x ∈ s.networks, ∀ q ∈ x.2.nodes, ∃ x' ∈ s'.networks, x'.1 = x.1 ∧ ∃ q' ∈ x'.2.nodes, q'.1 = q.1 ∧
      q.2.productions = q'.2.productions ∧ q.2.storages = q'.2.storages ∧
      q.2.links = q'.2.links ++ (if x.1 = g ∧ q.1 = e then [l] else []) ∧
      ((x.1 = g ∧ q.1 = m → q.2.consumptions = [c]) ∧ q'.2.consumptions = if x.1 = g ∧ q.1 = m then [] else
        q.2.consumptions ++ if x.1 = g ∧ q.1 = e then [c'] else []) ∧
      (x.1 = g ∧ q.1 = m → q'.2.consumptions = [] ∧ q'.2.productions = [] ∧ q'.2.storages = [] ∧ q'.2.links = []))
    (h1' : ∀ x' ∈ s'.networks, ∀ q' ∈ x'.2.nodes, ∃ x ∈ s.networks, x.1 = x'.1 ∧ ∃ q ∈ x.2.nodes, q.1 = q'.1)
    (hi' : StudyInv s')
    (h2 : s.converters = s'.converters)
    (h3 : ∀ x ∈ s'.networks, x.1 = g → ∀ q ∈ x.2.nodes, ∀ y ∈ q.2.links, y.dest ≠ m)
    (h4 : ∀ q ∈ s'.converters, ¬ (q.2.destNetwork = g ∧ q.2.destNode = m) ∧ ∀ r ∈ q.2.srcRatios, r.1 ≠ [g, m])
    (h7 : ∀ t < s.horizon, val c'.quantity k t = min (val c.quantity k t) (val l.quantity k t))
    (h8 : ∀ t < s.horizon, val c'.cost k t = val c.cost k t - val l.cost k t) :
    HamletMoved s s' k g m e c l c' := by
  have hnodes : ∀ g' d n, HasNode s g' d n → ∃ n', HasNode s' g' d n' ∧ HamletNode g m e c l c' g' d n n' := by
    rintro g' d n ⟨net, hg, hd⟩
    obtain ⟨⟨g2, net'⟩, hg', e1, ⟨d2, n'⟩, hd', e', a1, a2, a3, a4, a5⟩ := h1 _ hg _ hd
    dsimp only at e1 e' a1 a2 a3 a4 a5
    subst e1 e'
    refine ⟨n', ⟨net', hg', hd'⟩, a1, a2, a3, ?_, a5⟩
    by_cases c1 : g2 = g ∧ d2 = m
    · have c2 : ¬ (g2 = g ∧ d2 = e) := fun e => ham (e.2.symm.trans c1.2)
      rw [if_pos c1] at a4
      exact ⟨[], by rw [if_pos c1, a4.1 c1]; rfl, by rw [if_neg c2, a4.2]; rfl⟩
    · rw [if_neg c1] at a4
      exact ⟨n.consumptions, by rw [if_neg c1, List.append_nil], a4.2⟩
  refine ⟨hh, hn, ?_, ?_, ham, hgo, hnodes, ?_, h2, ?_, h4, h7, h8⟩
  · obtain ⟨⟨_, net⟩, hg, rfl, ⟨_, n⟩, hd, rfl⟩ := h0
    exact ⟨n, net, hg, hd⟩
  · obtain ⟨⟨_, net⟩, hg, rfl, ⟨_, n⟩, hd, e1⟩ := h0'
    dsimp only at e1
    subst e1
    exact ⟨n, net, hg, hd⟩
  · rintro g' d n' ⟨net, hg, hd⟩
    obtain ⟨⟨g2, net'⟩, hg', e1, ⟨d2, n⟩, hd', e'⟩ := h1' _ hg _ hd
    dsimp only at e1 e'
    subst e1 e'
    obtain ⟨n2, hn2, he⟩ := hnodes g2 d2 n ⟨net', hg', hd'⟩
    obtain rfl := hasNode_unique hi' hn2 ⟨net, hg, hd⟩
    exact ⟨n, ⟨net', hg', hd'⟩, he⟩
  · rintro d n' ⟨net, hg, hd⟩ x hx
    exact h3 _ hg rfl _ hd x hx

/-- a town with a load and a production; a farm at the end of a cable of 15, which asks for 20 -/
def farmStudy : Study := made 1 1
  [.studyNetwork "n", .netNode 0 "a", .nodeConsumption 0 "load" (.num 1000) (.num 30), .nodeProduction 0 "gas" (.num 70) (.num 40),
   .nodeNode 0 "farm", .nodeConsumption 0 "milk" (.num 500) (.num 20), .nodeLink 0 "a" "farm" (.num 2) (.num 15)]

/-- the farm in town -/
def yardStudy : Study := made 1 1
  [.studyNetwork "n", .netNode 0 "a", .nodeConsumption 0 "load" (.num 1000) (.num 30), .nodeProduction 0 "gas" (.num 70) (.num 40),
   .nodeConsumption 0 "milk" (.num 498) (.num 15), .nodeNode 0 "farm"]

theorem farmStudy_ready : Ready farmStudy where
  built := ⟨1, 1, _, rawCalls_of (by decide +kernel), rfl⟩
  complete := by unfold CompleteConverters; decide +kernel
  ratios := RatiosNonzero.usable (by unfold RatiosNonzero; decide +kernel)
  clean := cleanSources_of (by decide +kernel)

theorem yardStudy_ready : Ready yardStudy where
  built := ⟨1, 1, _, rawCalls_of (by decide +kernel), rfl⟩
  complete := by unfold CompleteConverters; decide +kernel
  ratios := RatiosNonzero.usable (by unfold RatiosNonzero; decide +kernel)
  clean := cleanSources_of (by decide +kernel)

set_option synthInstance.maxSize 1024 in
set_option synthInstance.maxHeartbeats 200000 in
theorem farm_yard : HamletMoved farmStudy yardStudy 0 "n" "farm" "a" ⟨number 500, number 20, "milk"⟩ ⟨"farm", number 15, number 2⟩
    ⟨number 498, number 15, "milk"⟩ :=
  hamletMoved_of (by decide +kernel) (by decide +kernel) (by decide +kernel) (by decide +kernel) (by decide) rfl (by decide +kernel)
    (by decide +kernel) (Built.inv yardStudy_ready.built) (by decide +kernel) (by decide +kernel) (by decide +kernel)
    (by decide +kernel) (by decide +kernel)

theorem farm_toll : hamletToll 1 0 ⟨number 500, number 20, "milk"⟩ ⟨"farm", number 15, number 2⟩ = 2530 := by decide +kernel

/-- the hypotheses are met: the farm at the end of its cable costs 2530 more than in town, whatever the optimal solvers -/
example (solver solver' : Solver) (r r' : Result) (hr : solveLp solver ⟨[], [], 0, 0⟩ farmStudy = .ok r)
    (hr' : solveLp solver' ⟨[], [], 0, 0⟩ yardStudy = .ok r') (ha : Answers solver farmStudy 0 Cmd.Optimal)
    (ha' : Answers solver' yardStudy 0 Cmd.Optimal) :
    cost farmStudy 0 (dispatchOf farmStudy r 0) = cost yardStudy 0 (dispatchOf yardStudy r' 0) + 2530 := by
  rw [← farm_toll]
  exact (C149 farm_yard farmStudy_ready yardStudy_ready (by decide +kernel) hr hr' ha ha').1

end Hadar.Props
