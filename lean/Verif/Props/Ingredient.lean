import Verif.Proofs.Ingredient
import Verif.Props.Passage

/-!
# C153: a converter with one source of its own
-/

namespace Hadar.Props

open Hadar Spec

variable {s s' : Study} {solver solver' : Solver} {b b' : Benchmark} {r r' : Result} {k : ℕ} {g m a : String} {A A' : Converter}
  {srcs : List (List String × NumVal)} {v : NumVal} {p : Production} {kept : List (String × Converter)}

/-- C153, for the documented problem: a dispatch with the ingredient is one without, and the other way round once the ingredient is produced
as the converter needs it, at the same cost -/
theorem C153_feasible (h : Supplied s s' k g m a A A' srcs v p kept) (hb : Built s) (hb' : Built s') :
    (∀ D, Spec.Feasible s k D → (∀ t < s.horizon, D.prod g m 0 t = D.convSrc a (g, m) t) ∧
      Spec.Feasible s' k D ∧ cost s' k D = cost s k D) ∧
    (∀ D, Spec.Feasible s' k D → Spec.Feasible s k (withIngredient k g m a v D) ∧
      cost s k (withIngredient k g m a v D) = cost s' k D) := by
  have hi := Built.inv hb
  have hi' := Built.inv hb'
  refine ⟨fun D hD => ?_, fun D hD => ?_⟩
  · obtain ⟨n, hn⟩ := h.nodeM
    have hbal : ∀ t < s.horizon, D.prod g m 0 t = D.convSrc a (g, m) t :=
      fun t ht => mix_balance h hi hi' hn (hD.balanced g m n hn t ht)
    have ho : SameMix s.horizon k g m a v D := fun t ht => ⟨hbal t ht, mix_ratio h hD.ratios t ht⟩
    exact ⟨hbal, (feasible_mix h hi hi' ho).mp hD, (cost_mix h hi hi' ho).symm⟩
  · have ho := ingredient_mix h D
    have hs := ingredient_same h hi D
    refine ⟨(feasible_mix h hi hi' ho).mpr (feasible_congr_flows hs hD), ?_⟩
    rw [cost_mix h hi hi' ho, ← cost_congr hs]

/-- C153: with the ingredient at a node of its own, and without it but with its cost in the cost of the converter and its quantity in the
maximum of the converter, solutions have the same cost; and the converter takes all that is produced of the ingredient -/
theorem C153 (h : Supplied s s' k g m a A A' srcs v p kept) (hs : Ready s) (hs' : Ready s') (hk : k < s.nbScn)
    (hr : solveLp solver b s = .ok r) (hr' : solveLp solver' b' s' = .ok r')
    (ha : Answers solver s k Cmd.Optimal) (ha' : Answers solver' s' k Cmd.Optimal) :
    cost s k (dispatchOf s r k) = cost s' k (dispatchOf s' r' k) ∧
      ∀ t < s.horizon, (dispatchOf s r k).prod g m 0 t = (dispatchOf s r k).convSrc a (g, m) t := by
  obtain rfl := Ready.result hs hr
  obtain rfl := Ready.result hs' hr'
  have hi := Built.inv hs.built
  have hi' := Built.inv hs'.built
  have hk' : k < s'.nbScn := h.scenarios ▸ hk
  have ho := optimal_result hi hk _ b (Ready.answer hs hk ha)
  have ho' := optimal_result hi' hk' _ b' (Ready.answer hs' hk' ha')
  have hbal : ∀ t < s.horizon, (dispatchOf s (resultAll s (valsOf solver s) b) k).prod g m 0 t =
      (dispatchOf s (resultAll s (valsOf solver s) b) k).convSrc a (g, m) t := by
    intro t ht
    obtain ⟨n, hn⟩ := h.nodeM
    have hb := ho.1.balance g m n hn t ht
    have hself : selfFlow (dispatchOf s (resultAll s (valsOf solver s) b) k) g m n t = 0 := by
      simp [selfFlow, (mix_prods h hn).2, sumI]
    rw [hself, add_zero] at hb
    exact mix_balance h hi hi' hn hb
  refine ⟨le_antisymm ?_ ?_, hbal⟩
  · have hq := ingredient_mix h (dispatchOf s' (resultAll s' (valsOf solver' s') b') k)
    have hsame := ingredient_same h hi (dispatchOf s' (resultAll s' (valsOf solver' s') b') k)
    rw [cost_congr hsame, ← cost_mix h hi hi' hq]
    exact ho.2 _ ((code_mix h hi hi' hq).mpr (CodeFeasible.congr hsame ho'.1))
  · have hq : SameMix s.horizon k g m a v (dispatchOf s (resultAll s (valsOf solver s) b) k) :=
      fun t ht => ⟨hbal t ht, mix_ratio h ho.1.ratios t ht⟩
    rw [cost_mix h hi hi' hq]
    exact ho'.2 _ ((code_mix h hi hi' hq).mp ho.1)

/-! ### A concrete case -/

theorem supplied_of (hh : s.horizon = s'.horizon) (hn : s.nbScn = s'.nbScn)
    (h0 : ∃ x ∈ s.networks, x.1 = g ∧ ∃ q ∈ x.2.nodes, q.1 = m)
    (h1 : ∀ x ∈ s.networks, ∀ q ∈ x.2.nodes, ∃ x' ∈ s'.networks, x'.1 = x.1 ∧ ∃ q' ∈ x'.2.nodes, q'.1 = q.1 ∧
      q.2.consumptions = q'.2.consumptions ∧ q.2.storages = q'.2.storages ∧ q.2.links = q'.2.links ∧
      (q.2.productions = q'.2.productions ++ if x.1 = g ∧ q.1 = m then [p] else []) ∧
      (x.1 = g ∧ q.1 = m → q'.2.consumptions = [] ∧ q'.2.productions = [] ∧ q'.2.storages = [] ∧ q'.2.links = []))
    (h1' : ∀ x' ∈ s'.networks, ∀ q' ∈ x'.2.nodes, ∃ x ∈ s.networks, x.1 = x'.1 ∧ ∃ q ∈ x.2.nodes, q.1 = q'.1)
    (hi' : StudyInv s')
    (h2 : s.converters = kept ++ [(a, A)]) (h2' : s'.converters = kept ++ [(a, A')])
    (hta : A.srcRatios = srcs ++ [([g, m], v)]) (hta' : A'.srcRatios = srcs)
    (hgi : A'.destNetwork = A.destNetwork ∧ A'.destNode = A.destNode) (hnb : ¬ (A.destNetwork = g ∧ A.destNode = m))
    (hot : ∀ x ∈ srcs, x.1 ≠ [g, m])
    (h3 : ∀ x ∈ s'.networks, x.1 = g → ∀ q ∈ x.2.nodes, ∀ y ∈ q.2.links, y.dest ≠ m)
    (h4 : ∀ q ∈ kept, ¬ (q.2.destNetwork = g ∧ q.2.destNode = m) ∧ ∀ x ∈ q.2.srcRatios, x.1 ≠ [g, m])
    (h6 : ∀ t < s.horizon, 0 < val v k t ∧ ∀ x ∈ srcs, 0 < val x.2 k t)
    (h7 : ∀ t < s.horizon, fval A'.max k t = min (fval A.max k t) (val p.quantity k t * val v k t))
    (h8 : ∀ t < s.horizon, fval A'.cost k t = fval A.cost k t + val p.cost k t / val v k t) :
    Supplied s s' k g m a A A' srcs v p kept := by
  have hnodes : ∀ g' d n, HasNode s g' d n → ∃ n', HasNode s' g' d n' ∧ IngredientNode g m p g' d n n' := by
    rintro g' d n ⟨net, hg, hd⟩
    obtain ⟨⟨g3, net'⟩, hg', e1, ⟨d2, n'⟩, hd', e', a1, a2, a3, a4, a5⟩ := h1 _ hg _ hd
    dsimp only at e1 e' a1 a2 a3 a4 a5
    subst e1 e'
    exact ⟨n', ⟨net', hg', hd'⟩, a1, a2, a3, a4, a5⟩
  refine ⟨hh, hn, ?_, hnodes, ?_, h2, h2', hta, hta', hgi, hnb, hot, ?_, h4, h6, h7, h8⟩
  · obtain ⟨⟨_, net⟩, hg, rfl, ⟨_, n⟩, hd, rfl⟩ := h0
    exact ⟨n, net, hg, hd⟩
  · rintro g' d n' ⟨net, hg, hd⟩
    obtain ⟨⟨g3, net'⟩, hg', e1, ⟨d2, n⟩, hd', e'⟩ := h1' _ hg _ hd
    dsimp only at e1 e'
    subst e1 e'
    obtain ⟨n2, hn2, he⟩ := hnodes g3 d2 n ⟨net', hg', hd'⟩
    obtain rfl := hasNode_unique hi' hn2 ⟨net, hg, hd⟩
    exact ⟨n, ⟨net', hg', hd'⟩, he⟩
  · rintro d n' ⟨net, hg, hd⟩ x hx
    exact h3 _ hg rfl _ hd x hx

/-- power of which hydrogen is made, with water of a well -/
def wellStudy : Study := made 1 1
  [.studyNetwork "power", .netNode 0 "p", .nodeProduction 0 "wind" (.num 1) (.num 60), .nodeToConverter 0 "cell" (.num (2/3)),
   .studyNetwork "water", .netNode 1 "w", .nodeProduction 1 "well" (.num 4) (.num 10), .nodeToConverter 1 "cell" (.num 2),
   .studyNetwork "gas", .netNode 2 "h", .nodeConsumption 2 "load" (.num 1000) (.num 30),
   .nodeConverter 2 "cell" "gas" "h" (.num 40) (.num 3)]

/-- hydrogen made of power, water being paid with the electrolysis -/
def dryStudy : Study := made 1 1
  [.studyNetwork "power", .netNode 0 "p", .nodeProduction 0 "wind" (.num 1) (.num 60), .nodeToConverter 0 "cell" (.num (2/3)),
   .studyNetwork "water", .netNode 1 "w",
   .studyNetwork "gas", .netNode 2 "h", .nodeConsumption 2 "load" (.num 1000) (.num 30),
   .nodeConverter 2 "cell" "gas" "h" (.num 20) (.num 5)]

theorem wellStudy_ready : Ready wellStudy where
  built := ⟨1, 1, _, rawCalls_of (by decide +kernel), rfl⟩
  complete := by unfold CompleteConverters; decide +kernel
  ratios := RatiosNonzero.usable (by unfold RatiosNonzero; decide +kernel)
  clean := cleanSources_of (by decide +kernel)

theorem dryStudy_ready : Ready dryStudy where
  built := ⟨1, 1, _, rawCalls_of (by decide +kernel), rfl⟩
  complete := by unfold CompleteConverters; decide +kernel
  ratios := RatiosNonzero.usable (by unfold RatiosNonzero; decide +kernel)
  clean := cleanSources_of (by decide +kernel)

set_option synthInstance.maxSize 1024 in
set_option synthInstance.maxHeartbeats 200000 in
theorem well_supplied : Supplied wellStudy dryStudy 0 "water" "w" "cell"
    ⟨"cell", [(["power", "p"], number (2/3)), (["water", "w"], number 2)], "gas", "h", .val (number 3), .val (number 40)⟩
    ⟨"cell", [(["power", "p"], number (2/3))], "gas", "h", .val (number 5), .val (number 20)⟩
    [(["power", "p"], number (2/3))] (number 2) ⟨"well", number 4, number 10⟩ [] :=
  supplied_of (by decide +kernel) (by decide +kernel) (by decide +kernel) (by decide +kernel) (by decide +kernel)
    (Built.inv dryStudy_ready.built) (by decide +kernel) (by decide +kernel) rfl rfl ⟨rfl, rfl⟩ (by decide) (by decide +kernel)
    (by decide +kernel) (by decide +kernel) (by decide +kernel) (by decide +kernel) (by decide +kernel)

/-- the hypotheses are met: with the well or without, whatever the optimal solvers -/
example (solver solver' : Solver) (r r' : Result) (hr : solveLp solver ⟨[], [], 0, 0⟩ wellStudy = .ok r)
    (hr' : solveLp solver' ⟨[], [], 0, 0⟩ dryStudy = .ok r') (ha : Answers solver wellStudy 0 Cmd.Optimal)
    (ha' : Answers solver' dryStudy 0 Cmd.Optimal) :
    cost wellStudy 0 (dispatchOf wellStudy r 0) = cost dryStudy 0 (dispatchOf dryStudy r' 0) :=
  (C153 well_supplied wellStudy_ready dryStudy_ready (by decide +kernel) hr hr' ha ha').1

/-- and dispatches are carried over -/
example (D : Dispatch) (hD : Spec.Feasible dryStudy 0 D) :
    Spec.Feasible wellStudy 0 (withIngredient 0 "water" "w" "cell" (number 2) D) :=
  ((C153_feasible well_supplied wellStudy_ready.built dryStudy_ready.built).2 D hD).1

end Hadar.Props
