import Verif.Proofs.Order
import Verif.Props.LPExamples
import Verif.Props.Tables
import Verif.Props.Accept

/-!
# C77: the order of declarations
-/

namespace Hadar.Props

open Hadar Spec

variable {s s' : Study} {solver solver' : Solver} {b b' : Benchmark} {r r' : Result} {k : ℕ}

/-- C77, when nodes have the same storage first: studies that differ by the order of their declarations have solutions of the same
cost. Missing: nodes with several storages, when another of them is declared first, see `C77_refuted`. -/
theorem C77_partial (h : Reordered s s') (hst : SameFirstStorage s s') (hs : Ready s) (hs' : Ready s') (hk : k < s.nbScn)
    (hr : solveLp solver b s = .ok r) (hr' : solveLp solver' b' s' = .ok r')
    (ha : Answers solver s k Cmd.Optimal) (ha' : Answers solver' s' k Cmd.Optimal) :
    cost s' k (dispatchOf s' r' k) = cost s k (dispatchOf s r k) := by
  obtain rfl := Ready.result hs hr
  obtain rfl := Ready.result hs' hr'
  have hi := Built.inv hs.built
  have hi' := Built.inv hs'.built
  have ho := optimal_result hi hk _ b (Ready.answer hs hk ha)
  have hk' : k < s'.nbScn := h.nbScn ▸ hk
  have ho' := optimal_result hi' hk' _ b' (Ready.answer hs' hk' ha')
  apply le_antisymm
  · rw [← moved_cost (D := dispatchOf s _ k) h hi hi']
    exact ho'.2 _ (moved_code h hst hi hi' ho.1)
  · rw [← moved_cost (D := dispatchOf s' _ k) h.symm hi' hi]
    exact ho.2 _ (moved_code h.symm hst.symm hi' hi ho'.1)

theorem perm_short {α : Type} {l l' : List α} (hl : l.length ≤ 1) (h : l.Perm l') : l = l' := by
  cases l with
  | nil => exact (List.nil_perm.mp h).symm
  | cons a m =>
    cases m with
    | nil => exact List.singleton_perm.mp h
    | cons _ _ => simp at hl

/-- C77, with at most one storage per node. Missing: several storages. -/
theorem C77_one_storage_partial (h : Reordered s s') (h1 : OneStorage s) (hs : Ready s) (hs' : Ready s') (hk : k < s.nbScn)
    (hr : solveLp solver b s = .ok r) (hr' : solveLp solver' b' s' = .ok r')
    (ha : Answers solver s k Cmd.Optimal) (ha' : Answers solver' s' k Cmd.Optimal) :
    cost s' k (dispatchOf s' r' k) = cost s k (dispatchOf s r k) := by
  refine C77_partial h ?_ hs hs' hk hr hr' ha ha'
  intro g d n n' hn hn'
  obtain ⟨m, hm, he⟩ := h.nodes g d n hn
  obtain rfl := hasNode_unique (Built.inv hs'.built) hm hn'
  rw [perm_short (h1 g d n hn) he.storages]

/-- a study without scenario or without time step is always accepted -/
theorem solve_empty (h : s.nbScn = 0 ∨ s.horizon = 0) : ∃ r, solveLp solver b s = .ok r := by
  unfold solveLp mapResults
  rcases h with h | h
  · rw [h]
    exact ⟨_, rfl⟩
  · have hb : ∀ k, solveBatch solver s k = .ok [] := by
      intro k
      unfold solveBatch buildAll
      rw [h]
      rfl
    have hm : ∀ l : List ℕ, l.mapM (solveBatch solver s) = .ok (l.map fun _ => []) := by
      intro l
      induction l with
      | nil => rfl
      | cons a l ih => rw [List.mapM_cons, hb, ih]; rfl
    rw [hm]
    have hf : ∀ (l : List ℕ), (∀ k ∈ l, k < s.nbScn) → ∀ r : Result, l.foldlM (fun r scn =>
        match ((List.range s.nbScn).map fun _ => ([] : List (LPTimeStep ℚ)))[scn]? with
        | some vars => mapScenario s scn vars r
        | none => .error .indexError) r = Except.ok (ε := PyErr) r := by
      intro l
      induction l with
      | nil => intro _ r; rfl
      | cons a l ih =>
        intro hl r
        have ha : a < s.nbScn := hl a List.mem_cons_self
        rw [List.foldlM_cons]
        have : ((List.range s.nbScn).map fun _ => ([] : List (LPTimeStep ℚ)))[a]? = some [] := by simp [ha]
        simp only [this]
        have h1 : mapScenario s a [] r = .ok r := by
          unfold mapScenario
          rw [h]
          rfl
        rw [h1]
        exact ih (fun k hk => hl k (List.mem_cons_of_mem _ hk)) r
    exact ⟨_, hf _ (fun k hk => List.mem_range.mp hk) _⟩

/-- C77: whether `solve_lp` accepts a study does not depend on the order of declarations -/
theorem C77_accepted (h : Reordered s s') (hb : Built s) (hb' : Built s') (hd : DistinctSources s) :
    (∃ r, solveLp solver b s = .ok r) ↔ ∃ r', solveLp solver' b' s' = .ok r' := by
  rcases Nat.eq_zero_or_pos s.nbScn with h0 | h0
  · exact ⟨fun _ => solve_empty (.inl (h.nbScn ▸ h0)), fun _ => solve_empty (.inl h0)⟩
  rcases Nat.eq_zero_or_pos s.horizon with h1 | h1
  · exact ⟨fun _ => solve_empty (.inr (h.horizon ▸ h1)), fun _ => solve_empty (.inr h1)⟩
  have hd' : DistinctSources s' := by
    intro p hp
    obtain ⟨c, hc, he⟩ := h.converters' p hp
    exact (he.sources.map fun q => joinKey q.1).nodup_iff.mp (hd _ hc)
  rw [C70 hb hd h0 h1, C70 hb' hd' (h.nbScn ▸ h0) (h.horizon ▸ h1)]
  constructor
  · rintro ⟨a1, a2, a3⟩
    have := h.ready ⟨hb, a1, a2, a3⟩ hb'
    exact ⟨this.complete, this.ratios, this.clean⟩
  · rintro ⟨a1, a2, a3⟩
    have := h.symm.ready ⟨hb', a1, a2, a3⟩ hb
    exact ⟨this.complete, this.ratios, this.clean⟩

/-- C77, for the documented problem and any number of storages: a least cost dispatch is one in any order of declarations, with the
same flows for the same elements, and it costs the same -/
theorem C77_dispatch (h : Reordered s s') (hb : Built s) (hb' : Built s') {D : Dispatch} (hD : Spec.Feasible s k D)
    (ho : ∀ E, Spec.Feasible s k E → cost s k D ≤ cost s k E) :
    Spec.Feasible s' k (moved s s' D) ∧ (∀ E, Spec.Feasible s' k E → cost s' k (moved s s' D) ≤ cost s' k E) ∧
      cost s' k (moved s s' D) = cost s k D := by
  have hi := Built.inv hb
  have hi' := Built.inv hb'
  refine ⟨moved_feasible h hi hi' hD, fun E hE => ?_, moved_cost h hi hi'⟩
  rw [moved_cost h hi hi', ← moved_cost (D := E) h.symm hi' hi]
  exact ho _ (moved_feasible h.symm hi' hi hE)

/-! ### Concrete cases -/

theorem reordered_of (h : s.horizon = s'.horizon) (hn : s.nbScn = s'.nbScn)
    (h1 : ∀ p ∈ s.networks, ∀ q ∈ p.2.nodes, ∃ p' ∈ s'.networks, p'.1 = p.1 ∧ ∃ q' ∈ p'.2.nodes, q'.1 = q.1 ∧
      q.2.consumptions.Perm q'.2.consumptions ∧ q.2.productions.Perm q'.2.productions ∧
      q.2.storages.Perm q'.2.storages ∧ q.2.links.Perm q'.2.links)
    (h1' : ∀ p ∈ s'.networks, ∀ q ∈ p.2.nodes, ∃ p' ∈ s.networks, p'.1 = p.1 ∧ ∃ q' ∈ p'.2.nodes, q'.1 = q.1 ∧
      q'.2.consumptions.Perm q.2.consumptions ∧ q'.2.productions.Perm q.2.productions ∧
      q'.2.storages.Perm q.2.storages ∧ q'.2.links.Perm q.2.links)
    (h2 : ∀ p ∈ s.converters, ∃ q ∈ s'.converters, q.1 = p.1 ∧ p.2.srcRatios.Perm q.2.srcRatios ∧
      p.2.destNetwork = q.2.destNetwork ∧ p.2.destNode = q.2.destNode ∧ p.2.cost = q.2.cost ∧ p.2.max = q.2.max)
    (h2' : ∀ p ∈ s'.converters, ∃ q ∈ s.converters, q.1 = p.1 ∧ q.2.srcRatios.Perm p.2.srcRatios ∧
      q.2.destNetwork = p.2.destNetwork ∧ q.2.destNode = p.2.destNode ∧ q.2.cost = p.2.cost ∧ q.2.max = p.2.max) :
    Reordered s s' where
  horizon := h
  nbScn := hn
  nodes := by
    rintro g d n ⟨net, hg, hd⟩
    obtain ⟨⟨g', net'⟩, hg', e, ⟨d', n'⟩, hd', e', a1, a2, a3, a4⟩ := h1 _ hg _ hd
    dsimp only at e e'
    subst e e'
    exact ⟨n', ⟨net', hg', hd'⟩, a1, a2, a3, a4⟩
  nodes' := by
    rintro g d n ⟨net, hg, hd⟩
    obtain ⟨⟨g', net'⟩, hg', e, ⟨d', n'⟩, hd', e', a1, a2, a3, a4⟩ := h1' _ hg _ hd
    dsimp only at e e'
    subst e e'
    exact ⟨n', ⟨net', hg', hd'⟩, a1, a2, a3, a4⟩
  converters := by
    rintro p hp
    obtain ⟨⟨c, q⟩, hq, e, a1, a2, a3, a4, a5⟩ := h2 p hp
    dsimp only at e
    subst e
    exact ⟨q, hq, a1, a2, a3, a4, a5⟩
  converters' := by
    rintro p hp
    obtain ⟨⟨c, q⟩, hq, e, a1, a2, a3, a4, a5⟩ := h2' p hp
    dsimp only at e
    subst e
    exact ⟨q, hq, a1, a2, a3, a4, a5⟩

/-- the calls that build `lpStudy`, in another order -/
def otherCalls : List Call :=
  [.studyNetwork "gas", .netNode 0 "g", .nodeProduction 0 "well" (.num 1) (.num 10),
   .studyNetwork "elec", .netNode 1 "b",
   .nodeStorage 1 ⟨"cell", .num 8, .num 2, .num 2, .num 0, 5, .num (9/10)⟩,
   .nodeConsumption 1 "load" (.num 100) (.num 6), .netNode 1 "a",
   .nodeProduction 1 "fuel" (.num 70) (.num 5), .nodeProduction 1 "nuke" (.num 20) (.num 15),
   .nodeConsumption 1 "load" (.num 100) (.num 10),
   .netLink 1 "a" "b" (.num 1) (.num 4),
   .nodeToConverter 0 "conv" (.num (1/2)),
   .nodeConverter 0 "conv" "elec" "b" (.num 3) (.num 2)]

def otherStudy : Study := ((World.start 1 1).run otherCalls).study

theorem otherStudy_built : Built otherStudy := ⟨1, 1, otherCalls, rawCalls_of (by decide +kernel), rfl⟩

theorem otherStudy_reordered : Reordered lpStudy otherStudy :=
  reordered_of (by decide +kernel) (by decide +kernel) (by decide +kernel) (by decide +kernel) (by decide +kernel)
    (by decide +kernel)

example : otherStudy ≠ lpStudy := by decide +kernel

example (solver : Solver) (b : Benchmark) : ∃ r, solveLp solver b otherStudy = .ok r :=
  (C77_accepted otherStudy_reordered lpStudy_ready.built otherStudy_built lpStudy_distinct (solver := solver) (b := b)).mp
    ⟨_, Ready.solve lpStudy_ready _ _⟩

/-- `otherStudy` costs what `lpStudy` costs, whatever the optimal solver -/
example (solver : Solver) (ha : Answers solver otherStudy 0 Cmd.Optimal) (b : Benchmark) (r : Result)
    (hr : solveLp solver b otherStudy = .ok r) : cost otherStudy 0 (dispatchOf otherStudy r 0) = 233 := by
  rw [C77_one_storage_partial otherStudy_reordered lpStudy_one lpStudy_ready (otherStudy_reordered.ready lpStudy_ready otherStudy_built)
    (by decide +kernel) (Ready.solve lpStudy_ready (fun _ => lpAnswer) ⟨[], [], 0, 0⟩) hr lpAnswer_optimal ha]
  decide +kernel

/-- the solution of `lpStudy`, moved to `otherStudy` -/
example : Spec.Feasible otherStudy 0 (moved lpStudy otherStudy (dispatchOf lpStudy (resultAll lpStudy (valsOf (fun _ => lpAnswer) lpStudy) ⟨[], [], 0, 0⟩) 0)) := by
  have h := C22_least_cost_partial lpStudy_ready lpStudy_noSelf lpStudy_one (Ready.solve lpStudy_ready (fun _ => lpAnswer) ⟨[], [], 0, 0⟩)
    (by decide +kernel) lpAnswer_optimal
  exact (C77_dispatch otherStudy_reordered lpStudy_ready.built otherStudy_built h.1 h.2).1

/-! ### With two storages -/

/-- `storCalls` with the storages in the other order -/
def rotsCalls : List Call :=
  [.studyNetwork "n", .netNode 0 "a", .nodeConsumption 0 "load" (.num 100) (.num 10),
   .nodeStorage 0 ⟨"s2", .num 10, .num 0, .num 10, .num 0, 0, .num 1⟩,
   .nodeStorage 0 ⟨"s1", .num 10, .num 0, .num 0, .num 0, 0, .num 1⟩]

def rotsStudy : Study := ((World.start 1 1).run rotsCalls).study

theorem rots_reordered : Reordered storStudy rotsStudy :=
  reordered_of (by decide +kernel) (by decide +kernel) (by decide +kernel) (by decide +kernel) (by decide +kernel)
    (by decide +kernel)

theorem rotsStudy_ready : Ready rotsStudy :=
  rots_reordered.ready storStudy_ready ⟨1, 1, rotsCalls, rawCalls_of (by decide +kernel), rfl⟩

/-- nothing is served -/
def rotsAnswer : Var → ℚ
  | .lol .. => 10
  | _ => 0

theorem rotsAnswer_optimal : Answers (fun _ => rotsAnswer) rotsStudy 0 Cmd.Optimal := by
  intro steps log h
  obtain rfl := logOf_eq h
  refine ⟨Cmd.feasible_of_check (by decide +kernel), ?_⟩
  intro y hy
  have h1 := hy.1.1 (.cap 0 "n" "a" 0) 0 10 (by decide +kernel)
  have h2 := hy.1.1 (.fin 0 "n" "a" 0) 0 0 (by decide +kernel)
  have h3 := hy.1.1 (.fout 0 "n" "a" 1) 0 0 (by decide +kernel)
  have h3' := hy.1.1 (.fin 0 "n" "a" 1) 0 0 (by decide +kernel)
  have h4 := value_ge hy (r := .stor 0 "n" "a" "s2") (lo := 0) (hi := 0)
    (d := [(.fin 0 "n" "a" 0, -1), (.fout 0 "n" "a" 0, 1), (.cap 0 "n" "a" 0, 1)])
    (by decide +kernel) (by decide +kernel)
  have h5 := value_ge hy (r := .adeq 0 "n" "a") (lo := 10) (hi := 10)
    (d := [(.lol 0 "n" "a" 0, 1), (.fin 0 "n" "a" 0, -1), (.fout 0 "n" "a" 0, 1), (.fin 0 "n" "a" 1, -1),
      (.fout 0 "n" "a" 1, 1)])
    (by decide +kernel) (by decide +kernel)
  simp only [Cmd.value, List.map_cons, List.map_nil, List.sum_cons, List.sum_nil] at h4 h5
  have e : Cmd.objCoefs (logOf rotsStudy 0) = [(.lol 0 "n" "a" 0, 100), (.cap 0 "n" "a" 0, 0),
      (.cap 0 "n" "a" 1, 0)] := by
    decide +kernel
  unfold Cmd.objective
  rw [e]
  simp [Cmd.value, rotsAnswer]
  linarith [h1.1, h2.1, h2.2, h3.1, h3.2, h3'.1, h3'.2, h4.1, h4.2, h5.1, h5.2]

/-- C77 refuted: two studies that only differ by the order of two storages, one costs 0 and the other 1000 -/
theorem C77_refuted : ∃ s s' solver solver' b r r', Reordered s s' ∧ Ready s ∧ Ready s' ∧ 0 < s.nbScn ∧
    Answers solver s 0 Cmd.Optimal ∧ Answers solver' s' 0 Cmd.Optimal ∧
    solveLp solver b s = .ok r ∧ solveLp solver' b s' = .ok r' ∧
    cost s 0 (dispatchOf s r 0) = 0 ∧ cost s' 0 (dispatchOf s' r' 0) = 1000 :=
  ⟨storStudy, rotsStudy, fun _ => storAnswer, fun _ => rotsAnswer, ⟨[], [], 0, 0⟩, _, _, rots_reordered, storStudy_ready,
    rotsStudy_ready, by decide +kernel, storAnswer_optimal, rotsAnswer_optimal, Ready.solve storStudy_ready _ _,
    Ready.solve rotsStudy_ready _ _, by decide +kernel, by decide +kernel⟩

/-! ### The theorems applied to concrete cases -/

theorem other_first : SameFirstStorage lpStudy otherStudy := by
  rintro g d n n' ⟨net, hg, hd⟩ ⟨net', hg', hd'⟩
  have : ∀ p ∈ lpStudy.networks, ∀ q ∈ p.2.nodes, ∀ p' ∈ otherStudy.networks, ∀ q' ∈ p'.2.nodes, p.1 = p'.1 → q.1 = q'.1 →
      q.2.storages.head? = q'.2.storages.head? := by decide +kernel
  exact this _ hg _ hd _ hg' _ hd' rfl rfl

example (solver : Solver) (ha : Answers solver otherStudy 0 Cmd.Optimal) (b : Benchmark) (r : Result)
    (hr : solveLp solver b otherStudy = .ok r) :=
  C77_partial otherStudy_reordered other_first lpStudy_ready (otherStudy_reordered.ready lpStudy_ready otherStudy_built)
    (by decide +kernel) (Ready.solve lpStudy_ready (fun _ => lpAnswer) ⟨[], [], 0, 0⟩) hr lpAnswer_optimal ha

end Hadar.Props
