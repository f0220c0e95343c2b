import Verif.Proofs.Passage
import Verif.Props.Extension

/-!
# C113: a link is a converter of ratio one
-/

namespace Hadar.Props

open Hadar Spec

variable {s s' : Study} {solver solver' : Solver} {b b' : Benchmark} {r r' : Result} {k : ℕ} {g a c : String} {l : Link}
  {p : Converter}

/-- C113, for links between different nodes: a study with a link and the study with a converter that does the same have
solutions of the same cost. Missing: links from a node to itself, see `C113_refuted`. -/
theorem C113_partial (h : Replaced s s' k g a l c p) (haway : l.dest ≠ a) (hs : Ready s) (hs' : Ready s') (hk : k < s.nbScn)
    (hr : solveLp solver b s = .ok r) (hr' : solveLp solver' b' s' = .ok r')
    (ha : Answers solver s k Cmd.Optimal) (ha' : Answers solver' s' k Cmd.Optimal) :
    cost s k (dispatchOf s r k) = cost s' k (dispatchOf s' r' k) := by
  obtain rfl := Ready.result hs hr
  obtain rfl := Ready.result hs' hr'
  have hi := Built.inv hs.built
  have hi' := Built.inv hs'.built
  have hk' : k < s'.nbScn := h.scenarios ▸ hk
  have ho := optimal_result hi hk _ b (Ready.answer hs hk ha)
  have ho' := optimal_result hi' hk' _ b' (Ready.answer hs' hk' ha')
  apply le_antisymm
  · have ht := through_asLink h ho'.1.ratios
    rw [← cost_through h hi hi' ht]
    exact ho.2 _ ((code_through h hi hi' haway ht).mpr ho'.1)
  · have ht := through_asConverter s' g a c (dispatchOf s (resultAll s (valsOf solver s) b) k)
    rw [cost_through h hi hi' ht]
    exact ho'.2 _ ((code_through h hi hi' haway ht).mp ho.1)

/-- C113, for the documented problem and every link: what goes through the link can go through the converter, and the other
way round, at the same cost -/
theorem C113_feasible (h : Replaced s s' k g a l c p) (hb : Built s) (hb' : Built s') :
    (∀ D, Spec.Feasible s k D → Spec.Feasible s' k (asConverter s' g a c D) ∧ cost s' k (asConverter s' g a c D) = cost s k D) ∧
    (∀ D, Spec.Feasible s' k D → Spec.Feasible s k (asLink s' g a c D) ∧ cost s k (asLink s' g a c D) = cost s' k D) := by
  have hi := Built.inv hb
  have hi' := Built.inv hb'
  refine ⟨fun D hD => ?_, fun D hD => ?_⟩
  · have ht := through_asConverter s' g a c D
    exact ⟨(feasible_through h hi hi' ht).mp hD, (cost_through h hi hi' ht).symm⟩
  · have ht := through_asLink h hD.ratios
    exact ⟨(feasible_through h hi hi' ht).mpr hD, cost_through h hi hi' ht⟩

/-! ### Concrete cases -/

theorem replaced_of (hh : s.horizon = s'.horizon) (hn : s.nbScn = s'.nbScn)
    (h0 : ∃ p ∈ s.networks, p.1 = g ∧ ∃ q ∈ p.2.nodes, q.1 = a)
    (h1 : ∀ p ∈ s.networks, ∀ q ∈ p.2.nodes, ∃ p' ∈ s'.networks, p'.1 = p.1 ∧ ∃ q' ∈ p'.2.nodes, q'.1 = q.1 ∧
      q.2.consumptions = q'.2.consumptions ∧ q.2.productions = q'.2.productions ∧ q.2.storages = q'.2.storages ∧
      q.2.links = q'.2.links ++ if p.1 = g ∧ q.1 = a then [l] else [])
    (h1' : ∀ p' ∈ s'.networks, ∀ q' ∈ p'.2.nodes, ∃ p ∈ s.networks, p.1 = p'.1 ∧ ∃ q ∈ p.2.nodes, q.1 = q'.1 ∧
      q.2.consumptions = q'.2.consumptions ∧ q.2.productions = q'.2.productions ∧ q.2.storages = q'.2.storages ∧
      q.2.links = q'.2.links ++ if p.1 = g ∧ q.1 = a then [l] else [])
    (h2 : s'.converters = s.converters ++ [(c, p)]) (h3 : DoesAs s.horizon k g a l p) :
    Replaced s s' k g a l c p where
  horizon := hh
  scenarios := hn
  node := by
    obtain ⟨⟨_, net⟩, hg, rfl, ⟨_, n⟩, hd, rfl⟩ := h0
    exact ⟨n, net, hg, hd⟩
  nodes := by
    rintro g' d n ⟨net, hg, hd⟩
    obtain ⟨⟨g2, net'⟩, hg', e, ⟨d2, n'⟩, hd', e', a1, a2, a3, a4⟩ := h1 _ hg _ hd
    dsimp only at e e'
    subst e e'
    exact ⟨n', ⟨net', hg', hd'⟩, a1, a2, a3, a4⟩
  nodes' := by
    rintro g' d n ⟨net, hg, hd⟩
    obtain ⟨⟨g2, net'⟩, hg', e, ⟨d2, n'⟩, hd', e', a1, a2, a3, a4⟩ := h1' _ hg _ hd
    dsimp only at e e'
    subst e e'
    exact ⟨n', ⟨net', hg', hd'⟩, a1, a2, a3, a4⟩
  converters := h2
  does := h3

/-- `lpStudy` with a further link from `b` to `a` -/
def lineStudy : Study := made 1 1 (lpCalls ++ [.netLink 0 "b" "a" (.num 2) (.num 5)])

/-- `lpStudy` with a converter that does the same -/
def boxStudy : Study := made 1 1 (lpCalls ++ [.nodeToConverter 0 "box" (.num 1), .nodeConverter 0 "box" "elec" "a" (.num 5) (.num 2)])

theorem lineStudy_ready : Ready lineStudy where
  built := ⟨1, 1, _, rawCalls_of (by decide +kernel), rfl⟩
  complete := by unfold CompleteConverters; decide +kernel
  ratios := RatiosNonzero.usable (by unfold RatiosNonzero; decide +kernel)
  clean := cleanSources_of (by decide +kernel)

theorem boxStudy_ready : Ready boxStudy where
  built := ⟨1, 1, _, rawCalls_of (by decide +kernel), rfl⟩
  complete := by unfold CompleteConverters; decide +kernel
  ratios := RatiosNonzero.usable (by unfold RatiosNonzero; decide +kernel)
  clean := cleanSources_of (by decide +kernel)

def number (q : ℚ) : NumVal := ⟨.scalar q, 1, 1⟩

theorem line_box : Replaced lineStudy boxStudy 0 "elec" "b" ⟨"a", number 5, number 2⟩ "box"
    ⟨"box", [(["elec", "b"], number 1)], "elec", "a", .val (number 2), .val (number 5)⟩ :=
  replaced_of (by decide +kernel) (by decide +kernel) (by decide +kernel) (by decide +kernel) (by decide +kernel)
    (by decide +kernel) ⟨⟨_, rfl, by decide +kernel⟩, rfl, rfl, by decide +kernel, by decide +kernel⟩

/-- the hypotheses are met: with the link or with the converter, whatever the optimal solvers -/
example (solver solver' : Solver) (r r' : Result) (hr : solveLp solver ⟨[], [], 0, 0⟩ lineStudy = .ok r)
    (hr' : solveLp solver' ⟨[], [], 0, 0⟩ boxStudy = .ok r') (ha : Answers solver lineStudy 0 Cmd.Optimal)
    (ha' : Answers solver' boxStudy 0 Cmd.Optimal) :
    cost lineStudy 0 (dispatchOf lineStudy r 0) = cost boxStudy 0 (dispatchOf boxStudy r' 0) :=
  C113_partial line_box (by decide) lineStudy_ready boxStudy_ready (by decide +kernel) hr hr' ha ha'

/-- and dispatches are carried over -/
example (D : Dispatch) (hD : Spec.Feasible lineStudy 0 D) :
    Spec.Feasible boxStudy 0 (asConverter boxStudy "elec" "b" "box" D) :=
  ((C113_feasible line_box lineStudy_ready.built boxStudy_ready.built).1 D hD).1

/-! ### A link from a node to itself -/

/-- `selfStudy` with a converter in place of the link -/
def turnStudy : Study := made 1 1
  [.studyNetwork "n", .netNode 0 "a", .nodeConsumption 0 "load" (.num 100) (.num 10),
   .nodeToConverter 0 "turn" (.num 1), .nodeConverter 0 "turn" "n" "a" (.num 10) (.num 0)]

theorem turnStudy_ready : Ready turnStudy where
  built := ⟨1, 1, _, rawCalls_of (by decide +kernel), rfl⟩
  complete := by unfold CompleteConverters; decide +kernel
  ratios := RatiosNonzero.usable (by unfold RatiosNonzero; decide +kernel)
  clean := cleanSources_of (by decide +kernel)

theorem self_turn : Replaced selfStudy turnStudy 0 "n" "a" ⟨"a", number 10, number 0⟩ "turn"
    ⟨"turn", [(["n", "a"], number 1)], "n", "a", .val (number 0), .val (number 10)⟩ :=
  replaced_of (by decide +kernel) (by decide +kernel) (by decide +kernel) (by decide +kernel) (by decide +kernel)
    (by decide +kernel) ⟨⟨_, rfl, by decide +kernel⟩, rfl, rfl, by decide +kernel, by decide +kernel⟩

/-- nothing is served through the converter -/
def turnAnswer : Var → ℚ
  | .lol .. => 10
  | _ => 0

theorem turnAnswer_optimal : Answers (fun _ => turnAnswer) turnStudy 0 Cmd.Optimal := by
  intro steps log h
  obtain rfl := logOf_eq h
  refine ⟨Cmd.feasible_of_check (by decide +kernel), ?_⟩
  intro y hy
  have e : Cmd.objCoefs (logOf turnStudy 0) = [(.lol 0 "n" "a" 0, 100), (.convDest 0 "turn", 0)] := by
    decide +kernel
  have r1 := value_ge hy (r := .adeq 0 "n" "a") (lo := 10) (hi := 10)
    (d := [(.lol 0 "n" "a" 0, 1), (.convDest 0 "turn", 1), (.convSrc 0 "turn" ["n", "a"], -1)]) (by decide +kernel) (by decide +kernel)
  have r2 := value_ge hy (r := .mix 0 "turn" ["n", "a"]) (lo := 0) (hi := 0)
    (d := [(.convSrc 0 "turn" ["n", "a"], 1), (.convDest 0 "turn", -1)]) (by decide +kernel) (by decide +kernel)
  have e' : Cmd.objective (logOf turnStudy 0) turnAnswer = 1000 := by decide +kernel
  dsimp only
  rw [e']
  unfold Cmd.objective
  rw [e]
  simp only [Cmd.value, List.map_cons, List.map_nil, List.sum_cons, List.sum_nil] at r1 r2 ⊢
  linarith [r1.1, r2.1]

/-- C113 refuted: a load of 10 without any production is served for nothing through a link from its node to itself, but costs
1000 when a converter of ratio one does what the link does -/
theorem C113_refuted : ∃ s s' g a l c p solver solver' b r r', Replaced s s' 0 g a l c p ∧ Ready s ∧ Ready s' ∧ 0 < s.nbScn ∧
    solveLp solver b s = .ok r ∧ solveLp solver' b s' = .ok r' ∧ Answers solver s 0 Cmd.Optimal ∧
    Answers solver' s' 0 Cmd.Optimal ∧ cost s 0 (dispatchOf s r 0) = 0 ∧ cost s' 0 (dispatchOf s' r' 0) = 1000 :=
  ⟨selfStudy, turnStudy, _, _, _, _, _, fun _ => selfAnswer, fun _ => turnAnswer, ⟨[], [], 0, 0⟩, _, _, self_turn,
    selfStudy_ready, turnStudy_ready, by decide +kernel, Ready.solve selfStudy_ready _ _, Ready.solve turnStudy_ready _ _,
    selfAnswer_optimal, turnAnswer_optimal, by decide +kernel, by decide +kernel⟩

end Hadar.Props
