import Verif.Proofs.Sourceless
import Verif.Props.Passage

/-!
# C154: a converter without sources
-/

namespace Hadar.Props

open Hadar Spec

variable {s s' : Study} {solver solver' : Solver} {b b' : Benchmark} {r r' : Result} {k : ℕ} {g e a : String} {A : Converter}
  {p : Production}

/-- C154, for the documented problem: what the converter gives can be produced, and the other way round, at the same cost -/
theorem C154_feasible (h : Sourceless s s' k g e a A p) (hb : Built s) (hb' : Built s') :
    (∀ D, Spec.Feasible s k D → Spec.Feasible s' k (asProduced s' g e a D) ∧ cost s' k (asProduced s' g e a D) = cost s k D) ∧
    (∀ D, Spec.Feasible s' k D → Spec.Feasible s k (asGiven s' g e a D) ∧ cost s k (asGiven s' g e a D) = cost s' k D) := by
  have hi := Built.inv hb
  have hi' := Built.inv hb'
  refine ⟨fun D hD => ?_, fun D hD => ?_⟩
  · have ho := produced_free (s' := s') (g := g) (e := e) (a := a) D
    have hs := produced_same h hi' D
    refine ⟨(feasible_free h hi hi' ho).mp (feasible_congr_flows hs hD), ?_⟩
    rw [← cost_free h hi hi' ho, ← cost_congr hs]
  · have ho := given_free (s' := s') (g := g) (e := e) (a := a) D
    have hs := given_same h hi D
    refine ⟨(feasible_free h hi hi' ho).mpr (feasible_congr_flows hs hD), ?_⟩
    rw [cost_free h hi hi' ho, ← cost_congr hs]

/-- C154: a converter without sources and a production of its maximum and of its cost give solutions of the same cost -/
theorem C154 (h : Sourceless s s' k g e a A p) (hs : Ready s) (hs' : Ready s') (hk : k < s.nbScn)
    (hr : solveLp solver b s = .ok r) (hr' : solveLp solver' b' s' = .ok r')
    (ha : Answers solver s k Cmd.Optimal) (ha' : Answers solver' s' k Cmd.Optimal) :
    cost s k (dispatchOf s r k) = cost s' k (dispatchOf s' r' k) := by
  obtain rfl := Ready.result hs hr
  obtain rfl := Ready.result hs' hr'
  have hi := Built.inv hs.built
  have hi' := Built.inv hs'.built
  have hk' : k < s'.nbScn := h.scenarios ▸ hk
  have ho := optimal_result hi hk _ b (Ready.answer hs hk ha)
  have ho' := optimal_result hi' hk' _ b' (Ready.answer hs' hk' ha')
  apply le_antisymm
  · have hq := given_free (s' := s') (g := g) (e := e) (a := a) (dispatchOf s' (resultAll s' (valsOf solver' s') b') k)
    have hsame := given_same h hi (dispatchOf s' (resultAll s' (valsOf solver' s') b') k)
    rw [cost_congr hsame, ← cost_free h hi hi' hq]
    exact ho.2 _ ((code_free h hi hi' hq).mpr (CodeFeasible.congr hsame ho'.1))
  · have hq := produced_free (s' := s') (g := g) (e := e) (a := a) (dispatchOf s (resultAll s (valsOf solver s) b) k)
    have hsame := produced_same h hi' (dispatchOf s (resultAll s (valsOf solver s) b) k)
    rw [cost_congr hsame, cost_free h hi hi' hq]
    exact ho'.2 _ ((code_free h hi hi' hq).mp (CodeFeasible.congr hsame ho.1))

/-! ### A concrete case -/

theorem sourceless_of (hh : s.horizon = s'.horizon) (hn : s.nbScn = s'.nbScn)
    (h0 : ∃ x ∈ s.networks, x.1 = g ∧ ∃ q ∈ x.2.nodes, q.1 = e)
    (h1 : ∀ x ∈ s.networks, ∀ q ∈ x.2.nodes, ∃ x' ∈ s'.networks, x'.1 = x.1 ∧ ∃ q' ∈ x'.2.nodes, q'.1 = q.1 ∧
      q.2.consumptions = q'.2.consumptions ∧ q.2.storages = q'.2.storages ∧ q.2.links = q'.2.links ∧
      q'.2.productions = q.2.productions ++ if x.1 = g ∧ q.1 = e then [p] else [])
    (h1' : ∀ x' ∈ s'.networks, ∀ q' ∈ x'.2.nodes, ∃ x ∈ s.networks, x.1 = x'.1 ∧ ∃ q ∈ x.2.nodes, q.1 = q'.1)
    (hi' : StudyInv s')
    (h2 : s.converters = s'.converters ++ [(a, A)]) (hta : A.srcRatios = []) (hgi : A.destNetwork = g ∧ A.destNode = e)
    (h7 : ∀ t < s.horizon, val p.quantity k t = fval A.max k t)
    (h8 : ∀ t < s.horizon, val p.cost k t = fval A.cost k t) : Sourceless s s' k g e a A p := by
  have hnodes : ∀ g' d n, HasNode s g' d n → ∃ n', HasNode s' g' d n' ∧ SourcelessNode g e p g' d n n' := by
    rintro g' d n ⟨net, hg, hd⟩
    obtain ⟨⟨g3, net'⟩, hg', e1, ⟨d2, n'⟩, hd', e', a1, a2, a3, a4⟩ := h1 _ hg _ hd
    dsimp only at e1 e' a1 a2 a3 a4
    subst e1 e'
    exact ⟨n', ⟨net', hg', hd'⟩, a1, a2, a3, a4⟩
  refine ⟨hh, hn, ?_, hnodes, ?_, h2, hta, hgi, h7, h8⟩
  · obtain ⟨⟨_, net⟩, hg, rfl, ⟨_, n⟩, hd, rfl⟩ := h0
    exact ⟨n, net, hg, hd⟩
  · rintro g' d n' ⟨net, hg, hd⟩
    obtain ⟨⟨g3, net'⟩, hg', e1, ⟨d2, n⟩, hd', e'⟩ := h1' _ hg _ hd
    dsimp only at e1 e'
    subst e1 e'
    obtain ⟨n2, hn2, he⟩ := hnodes g3 d2 n ⟨net', hg', hd'⟩
    obtain rfl := hasNode_unique hi' hn2 ⟨net, hg, hd⟩
    exact ⟨n, ⟨net', hg', hd'⟩, he⟩

/-- a load with wind, and a turbine whose fuel was forgotten -/
def forgotStudy : Study := made 1 1
  [.studyNetwork "power", .netNode 0 "p", .nodeConsumption 0 "load" (.num 1000) (.num 30), .nodeProduction 0 "wind" (.num 1) (.num 5),
   .nodeConverter 0 "turbine" "power" "p" (.num 20) (.num 3)]

/-- the turbine declared as a production -/
def unfuelledStudy : Study := made 1 1
  [.studyNetwork "power", .netNode 0 "p", .nodeConsumption 0 "load" (.num 1000) (.num 30), .nodeProduction 0 "wind" (.num 1) (.num 5),
   .nodeProduction 0 "turbine" (.num 3) (.num 20)]

theorem forgotStudy_ready : Ready forgotStudy where
  built := ⟨1, 1, _, rawCalls_of (by decide +kernel), rfl⟩
  complete := by unfold CompleteConverters; decide +kernel
  ratios := RatiosNonzero.usable (by unfold RatiosNonzero; decide +kernel)
  clean := cleanSources_of (by decide +kernel)

theorem unfuelledStudy_ready : Ready unfuelledStudy where
  built := ⟨1, 1, _, rawCalls_of (by decide +kernel), rfl⟩
  complete := by unfold CompleteConverters; decide +kernel
  ratios := RatiosNonzero.usable (by unfold RatiosNonzero; decide +kernel)
  clean := cleanSources_of (by decide +kernel)

set_option synthInstance.maxSize 1024 in
set_option synthInstance.maxHeartbeats 200000 in
theorem forgot_sourceless : Sourceless forgotStudy unfuelledStudy 0 "power" "p" "turbine"
    ⟨"turbine", [], "power", "p", .val (number 3), .val (number 20)⟩ ⟨"turbine", number 3, number 20⟩ :=
  sourceless_of (by decide +kernel) (by decide +kernel) (by decide +kernel) (by decide +kernel) (by decide +kernel)
    (Built.inv unfuelledStudy_ready.built) (by decide +kernel) rfl ⟨rfl, rfl⟩ (by decide +kernel) (by decide +kernel)

/-- the hypotheses are met: the turbine without fuel is a production, whatever the optimal solvers -/
example (solver solver' : Solver) (r r' : Result) (hr : solveLp solver ⟨[], [], 0, 0⟩ forgotStudy = .ok r)
    (hr' : solveLp solver' ⟨[], [], 0, 0⟩ unfuelledStudy = .ok r') (ha : Answers solver forgotStudy 0 Cmd.Optimal)
    (ha' : Answers solver' unfuelledStudy 0 Cmd.Optimal) :
    cost forgotStudy 0 (dispatchOf forgotStudy r 0) = cost unfuelledStudy 0 (dispatchOf unfuelledStudy r' 0) :=
  C154 forgot_sourceless forgotStudy_ready unfuelledStudy_ready (by decide +kernel) hr hr' ha ha'

/-- and dispatches are carried over -/
example (D : Dispatch) (hD : Spec.Feasible unfuelledStudy 0 D) : Spec.Feasible forgotStudy 0 (asGiven unfuelledStudy "power" "p" "turbine" D) :=
  ((C154_feasible forgot_sourceless forgotStudy_ready.built unfuelledStudy_ready.built).2 D hD).1

end Hadar.Props
