import Verif.Props.TablesExact
import Verif.Props.ViewerStack
import Verif.Props.Optimum
import Verif.Props.Query

/-!
# C37, C64, C68, C69, C71: where they fail
-/

namespace Hadar.Props

open Hadar Spec

theorem costStor_a : HasNode costStor "n" "a" (inNode costStor "n" "a") := hasNode_inNode (by decide +kernel)

/-- C37 refuted: with two storages in a study, the query for the storages of the node of the first one returns no line, although one row
matches all filters -/
theorem C37_refuted : ∃ s r junk a calls pt, Built s ∧ Mirrors s r ∧ Analyzer.init junk s r = .ok a ∧ BoundsGiven calls ∧
    a.ask (.one (.str "n")) calls = .ok (.table (some pt)) ∧ pt.lines = [] ∧
    ∃ row ∈ tableRows s r .stor, Matches s ((.network, .one (.str "n")) :: calls) row := by
  have h : charted costStor (fun _ => costAnswer) (fun a => a.ask (.one (.str "n")) [(.node, .one (.str "a")), (.stor, .none),
      (.time, .one (.num 0)), (.scn, .one (.num 0))]) =
      .ok (.table (some ⟨["network", "node", "name", "t", "scn"], []⟩)) := by decide +kernel
  rcases charted_cases h with ⟨e, _, h1⟩ | ⟨a, h1, h2⟩
  · cases h1
  · refine ⟨costStor, _, _, a, _, _, costStor_built, mirrors_result (Built.inv costStor_built) _ _, h1, ?_, h2, rfl, ?_⟩
    · intro k a b c hm
      simp at hm
    · have : ∃ row ∈ tableRows costStor (resultAll costStor (fun _ => costAnswer) ⟨[], [], 0, 0⟩) .stor,
          Row.at row "network" = .str "n" ∧ Row.at row "node" = .str "a" ∧ Row.at row "t" = .num 0 ∧ Row.at row "scn" = .num 0 := by
        decide +kernel
      obtain ⟨row, hm, e1, e2, e3, e4⟩ := this
      refine ⟨row, hm, ?_⟩
      intro p hp
      simp only [List.mem_cons, List.not_mem_nil, or_false] at hp
      rcases hp with rfl | rfl | rfl | rfl | rfl
      · exact e1
      · exact e2
      · trivial
      · exact e3
      · exact e4

theorem both_ok {α β : Type} {A : Except PyErr α} {B : Except PyErr β} {u : α} {v : β}
    (h : (do let x ← A; let y ← B; pure (x, y)) = Except.ok (u, v)) : A = .ok u ∧ B = .ok v := by
  cases A with
  | error e => cases h
  | ok x =>
    cases B with
    | error e => cases h
    | ok y => cases h; exact ⟨rfl, rfl⟩

/-- C64 refuted: with two storages in a study, the monotone charts of the first one raise -/
theorem C64_refuted : ∃ s r junk a, ∃ i : ℕ, ∃ c : Storage, Built s ∧ Mirrors s r ∧ Analyzer.init junk s r = .ok a ∧
    (∃ n, HasNode s "n" "a" n ∧ n.storages[i]? = some c) ∧ 0 < s.nbScn ∧ 0 < s.horizon ∧
    Viewer.Item.monotone a ⟨"n", "a", .stor, c.name, ""⟩ (some 0) none = .error .keyError ∧
    Viewer.Item.monotone a ⟨"n", "a", .stor, c.name, ""⟩ none (some 0) = .error .keyError := by
  have h : charted costStor (fun _ => costAnswer) (fun a => pure
      (Viewer.Item.monotone a ⟨"n", "a", .stor, "s1", ""⟩ (some 0) none,
        Viewer.Item.monotone a ⟨"n", "a", .stor, "s1", ""⟩ none (some 0))) =
      .ok (.error .keyError, .error .keyError) := by decide +kernel
  obtain ⟨c, hc⟩ : ∃ c, (inNode costStor "n" "a").storages[0]? = some c :=
    Option.isSome_iff_exists.mp (by decide +kernel)
  have hname : c.name = "s1" := by
    have : ((inNode costStor "n" "a").storages[0]?).map (·.name) = some "s1" := by decide +kernel
    rw [hc] at this
    exact Option.some.inj this
  rcases charted_cases h with ⟨e, _, h1⟩ | ⟨a, h1, h2⟩
  · cases h1
  · obtain ⟨h3, h4⟩ := Prod.mk.inj (Except.ok.inj h2)
    refine ⟨costStor, _, _, a, 0, c, costStor_built, mirrors_result (Built.inv costStor_built) _ _, h1, ⟨_, costStor_a, hc⟩,
      by decide +kernel, by decide +kernel, ?_, ?_⟩
    · rw [hname]; exact h3
    · rw [hname]; exact h4

/-- intakes of the converter: 1 in the first scenario, 2 in the second -/
def twoSrcVals : Vals := fun k v => match v with
  | .convSrc .. => k + 1
  | _ => 0

/-- C68 refuted: the timeline of an intake of a converter with two sources has one curve for two scenarios, with a mean of values -/
theorem C68_refuted : ∃ s r junk a x f, Built s ∧ Mirrors s r ∧ Analyzer.init junk s r = .ok a ∧ Shows s r x f ∧ 0 < s.nbScn ∧
    0 < s.horizon ∧ x.timeline a ≠ .ok ((List.range s.nbScn).map fun k : ℕ => (Cell.num k, over s (f k))) := by
  have h : charted twoSrc twoSrcVals (fun a => Viewer.Item.timeline a ⟨"g", "y", .srcConv, "conv", "flow"⟩) =
      .ok [(.num 0, [3 / 2])] := by decide +kernel
  have hq : ∃ p ∈ twoSrc.converters, p.1 = "conv" ∧ ∃ q ∈ p.2.srcRatios, q.1 = ["g", "y"] := by decide +kernel
  obtain ⟨⟨x, c⟩, hp, rfl, ⟨⟨e, v⟩, hv, rfl⟩⟩ := hq
  rcases charted_cases h with ⟨e, _, h1⟩ | ⟨a, h1, h2⟩
  · cases h1
  · refine ⟨twoSrc, _, _, a, _, _, twoSrc_built, mirrors_result (Built.inv twoSrc_built) _ _, h1, .departure hp hv, by decide +kernel,
      by decide +kernel, ?_⟩
    dsimp only
    rw [h2]
    decide +kernel

/-- C69 refuted: with several storages in a study, the stack of areas has no band for a storage that gives energy -/
theorem C69_refuted : ∃ s solver b r junk a chart n, Ready s ∧ solveLp solver b s = .ok r ∧ Analyzer.init junk s r = .ok a ∧
    HasNode s "n" "a" n ∧ Answers solver s 0 Cmd.Feasible ∧ Viewer.stack a highestFirst "n" "a" 0 "used" "given" = .ok chart ∧
    ¬ ∃ P O A I, Piled s.horizon (P ++ O ++ A ++ I) chart.areas ∧ RankedOf s (outflowBands s r "n" "a" n 0) O := by
  have hr := Ready.solve pairTank_ready (fun _ => pairTankAnswer) ⟨[], [], 0, 0⟩
  have h : charted pairTank (fun _ => pairTankAnswer) (fun a =>
      Viewer.stack a highestFirst "n" "a" 0 "used" "given") = .ok ⟨[(.str "s2", [0])], [(.str "s2", [1]), (.str "load", [1])]⟩ := by
    decide +kernel
  rcases charted_cases h with ⟨e, _, h1⟩ | ⟨a, h1, h2⟩
  · cases h1
  · refine ⟨pairTank, _, _, _, _, a, _, _, pairTank_ready, hr, h1, hasNode_inNode (by decide +kernel), pairTankAnswer_feasible, h2, ?_⟩
    rintro ⟨P, O, A, I, hp, order, ho, rfl, -⟩
    have h3 := congrArg List.length hp.1
    simp only [List.length_map, List.length_append, List.length_cons, List.length_nil] at h3
    have h4 := ho.length_eq
    unfold outflowBands at h4
    rw [List.length_map, List.length_zipIdx] at h4
    have h5 : (inNode pairTank "n" "a").storages.length = 2 := by decide +kernel
    omega

/-- C71 refuted: with a link from a node to itself, no solver that answers optimally makes `solve_lp` return a feasible dispatch -/
theorem C71_refuted : ∃ s, Ready s ∧ 0 < s.nbScn ∧ LimitsOk s 0 ∧ ∀ solver b r, Answers solver s 0 Cmd.Optimal →
    solveLp solver b s = .ok r → ¬ Spec.Feasible s 0 (dispatchOf s r 0) := by
  refine ⟨selfStudy, selfStudy_ready, by decide +kernel, ?_, ?_⟩
  · have h : ∀ p ∈ selfStudy.networks, ∀ q ∈ p.2.nodes, (∀ c ∈ q.2.consumptions, ∀ t < selfStudy.horizon, 0 ≤ val c.quantity 0 t) ∧
        (∀ c ∈ q.2.links, ∀ t < selfStudy.horizon, 0 ≤ val c.quantity 0 t) ∧ q.2.productions = [] ∧ q.2.storages = [] := by
      decide +kernel
    have hc : selfStudy.converters = [] := by decide +kernel
    constructor
    · rintro g d n ⟨net, hg, hd⟩; exact (h _ hg _ hd).1
    · rintro g d n ⟨net, hg, hd⟩ c hc
      rw [(h _ hg _ hd).2.2.1] at hc
      cases hc
    · rintro g d n ⟨net, hg, hd⟩; exact (h _ hg _ hd).2.1
    · rintro g d n ⟨net, hg, hd⟩ c hc
      rw [(h _ hg _ hd).2.2.2] at hc
      cases hc
    · rw [hc]
      intro p hp
      cases hp
  · intro solver b r ha hr hf
    have hi := Built.inv selfStudy_ready.built
    obtain rfl := Ready.result selfStudy_ready hr
    have ho := optimal_result hi (by decide +kernel) _ b (Ready.answer selfStudy_ready (by decide +kernel) ha)
    have h0 : CodeFeasible selfStudy 0 (ofVars selfAnswer) := (feasible_iff hi 0 _).mp (by
      have := (selfAnswer_optimal _ _ (Ready.build selfStudy_ready (by decide +kernel))).1
      exact this)
    have h1 := ho.2 _ h0
    have e : cost selfStudy 0 (ofVars selfAnswer) = 0 := by decide +kernel
    rw [e] at h1
    have := selfStudy_cost _ hf
    linarith

end Hadar.Props
