import Verif.Proofs.Clock
import Verif.Props.LPExamples

/-! # C112: measured times -/

namespace Hadar.Props

open Hadar Spec

/-- C112: measuring times changes nothing: the run gives a result exactly when there is one, with the same networks and converters, whatever the clocks read, the
size of the chunks and the order in which workers finish -/
theorem C112_same (c : Clocks) (b : Benchmark) (solver : Solver) (s : Study) {size : ℕ} (hs : 0 < size) {order : List ℕ}
    (ho : order.Perm (List.range (Pool.nbChunks size s.nbScn))) :
    (solveLpTimed c size order solver s).toOption.map (fun r => (r.networks, r.converters)) =
      (solveLp solver b s).toOption.map fun r => (r.networks, r.converters) := by
  rw [timed_eq c solver s hs ho]
  have h : ∀ b, (solveLp solver b s).toOption.map (fun r => (r.networks, r.converters)) =
      (solveLp solver Benchmark.new s).toOption.map fun r => (r.networks, r.converters) := by
    intro b
    unfold solveLp
    cases (List.range s.nbScn).mapM (solveBatch solver s) with
    | error e => rfl
    | ok vs =>
      have hf := follows_mapResults b s vs (OutputMapper.init s Benchmark.new)
      have hi : ({ OutputMapper.init s Benchmark.new with benchmark := b } : Result) = OutputMapper.init s b := rfl
      simp only [hi] at hf
      simp only [bind, Except.bind]
      rw [hf]
      cases mapResults s vs (OutputMapper.init s Benchmark.new) <;> rfl
  rw [h, h b]

/-- C112: times are listed by scenario, whatever the order in which workers finish -/
theorem C112_measures (c : Clocks) (solver : Solver) (s : Study) {size : ℕ} (hs : 0 < size) {order : List ℕ}
    (ho : order.Perm (List.range (Pool.nbChunks size s.nbScn))) {r : Result} (h : solveLpTimed c size order solver s = .ok r) :
    Measures c s.nbScn r.benchmark := by
  have e := timed_eq c solver s hs ho
  rw [h] at e
  cases h' : solveLp solver (measured c s.nbScn) s with
  | error e' => rw [h'] at e; cases e
  | ok r' =>
    rw [h'] at e
    cases e
    have : r.benchmark = measured c s.nbScn := by
      unfold solveLp at h'
      cases hm : (List.range s.nbScn).mapM (solveBatch solver s) with
      | error e => rw [hm] at h'; cases h'
      | ok vs =>
        rw [hm] at h'
        simp only [bind, Except.bind] at h'
        have hf := follows_mapResults (measured c s.nbScn) s vs (OutputMapper.init s (measured c s.nbScn))
        have hi : ({ OutputMapper.init s (measured c s.nbScn) with benchmark := measured c s.nbScn } : Result) =
          OutputMapper.init s (measured c s.nbScn) := rfl
        simp only [hi, h', Except.map, Except.ok.injEq] at hf
        rw [hf]
    rw [this]
    exact measured_measures c _

/-- C112 (partial): with a clock that never goes back all times are non-negative, and for each scenario the time until its problem was built, the
time until it was solved and the time of the mapper fit together: the latter two are at most the total and what passes between
the last two readings. Missing: the list `solver` is not the time spent in the solver (`C112_refuted`), and the mapper may take more than the total
(`C112_total_refuted`). -/
theorem C112_partial {c : Clocks} {n : ℕ} {b : Benchmark} (h : Measures c n b) (hc : Forward c n) :
    0 ≤ b.mapper ∧ 0 ≤ b.total ∧ (∀ m ∈ b.modeler, 0 ≤ m) ∧ b.mapper ≤ b.total + (c.endMapper - c.endTotal) ∧
    ∀ k < n, ∃ m v, b.modeler[k]? = some m ∧ b.solver[k]? = some v ∧ 0 ≤ m ∧ m ≤ v ∧
      v = m + ((c.worker k).solved - (c.worker k).built) ∧ v ≤ b.total ∧ v + b.mapper ≤ b.total + (c.endMapper - c.endTotal) := by
  have h1 := hc.finished
  have h2 := hc.total
  have h3 := hc.mapper
  rw [h.mapper, h.total]
  refine ⟨by linarith, by linarith, ?_, by linarith, ?_⟩
  · intro m hm
    obtain ⟨k, hk⟩ := List.getElem?_of_mem hm
    have hk' : k < n := by
      by_contra hcon
      rw [List.getElem?_eq_none (by rw [h.modelers]; omega)] at hk
      cases hk
    rw [h.modeler k hk'] at hk
    have := hc.built k hk'
    cases hk
    linarith
  · intro k hk
    have e1 := hc.begins k hk
    have e2 := hc.built k hk
    have e3 := hc.solved k hk
    have e4 := hc.ends k hk
    exact ⟨_, _, h.modeler k hk, h.solver k hk, by linarith, by linarith, by ring, by linarith, by linarith⟩

/-- C112 refuted: as soon as it takes time to build a problem, the list `solver` does not tell the time spent in the solver, as it also
counts the time to build -/
theorem C112_refuted {c : Clocks} {n : ℕ} {b : Benchmark} (h : Measures c n b) {k : ℕ} (hk : k < n)
    (ht : (c.worker k).start < (c.worker k).built) : ¬ Consistent c n b := by
  intro hcon
  have := hcon.spent k hk
  rw [h.solver k hk] at this
  have := Option.some.inj this
  linarith

/-- times of a run on a busy machine: the process waits between the reading of the total and the reading of the time of the mapper -/
def busy : Clocks := ⟨0, 2, 3, 7, fun _ => ⟨0, 0, 1⟩⟩

/-- C112 refuted: the mapper may seem to take longer than everything, as the total is read first -/
theorem C112_total_refuted (n : ℕ) : Forward busy n ∧ ∀ b, Measures busy n b → b.total < b.mapper := by
  refine ⟨⟨?_, ?_, ?_, ?_, ?_, ?_, ?_⟩, ?_⟩
  all_goals try (intro k _; simp only [busy]; norm_num)
  all_goals try (simp only [busy]; norm_num)
  intro b h
  rw [h.mapper, h.total]
  simp only [busy]
  norm_num

/-! ### Concrete cases -/

/-- the clocks of a run: the second worker begins later -/
def someClocks : Clocks := ⟨100, 110, 112, 113, fun k => ⟨101 + k, 103 + k, 106 + k⟩⟩

theorem someClocks_forward : Forward someClocks lpStudy.nbScn := by
  have hn : lpStudy.nbScn ≤ 4 := by decide +kernel
  refine ⟨?_, ?_, ?_, ?_, ?_, ?_, ?_⟩
  all_goals simp only [someClocks]
  all_goals try norm_num
  all_goals
    intro k hk
    have : (k : ℚ) ≤ 3 := by exact_mod_cast (show k ≤ 3 by omega)
    have : (0 : ℚ) ≤ k := by positivity
    linarith

theorem lpStudy_timed : ∃ r, solveLpTimed someClocks 1 (List.range lpStudy.nbScn).reverse (fun _ => lpAnswer) lpStudy = .ok r := by
  have ho : (List.range lpStudy.nbScn).reverse.Perm (List.range (Pool.nbChunks 1 lpStudy.nbScn)) := by
    unfold Pool.nbChunks
    simpa using List.reverse_perm _
  have e := timed_eq someClocks (fun _ => lpAnswer) lpStudy one_pos ho
  rw [Ready.solve lpStudy_ready] at e
  cases h : solveLpTimed someClocks 1 (List.range lpStudy.nbScn).reverse (fun _ => lpAnswer) lpStudy with
  | error e' => rw [h] at e; cases e
  | ok r => exact ⟨r, rfl⟩

/-- the times of the example, with workers that finish in reverse order -/
example : ∃ r, solveLpTimed someClocks 1 (List.range lpStudy.nbScn).reverse (fun _ => lpAnswer) lpStudy = .ok r ∧
    r.benchmark.total = 12 ∧ r.benchmark.mapper = 3 ∧ r.benchmark.modeler[0]? = some 2 ∧ r.benchmark.solver[0]? = some 5 ∧
    ¬ Consistent someClocks lpStudy.nbScn r.benchmark := by
  obtain ⟨r, h⟩ := lpStudy_timed
  have ho : (List.range lpStudy.nbScn).reverse.Perm (List.range (Pool.nbChunks 1 lpStudy.nbScn)) := by
    unfold Pool.nbChunks
    simpa using List.reverse_perm _
  have hm := C112_measures someClocks _ lpStudy one_pos ho h
  have h0 : 0 < lpStudy.nbScn := by decide +kernel
  refine ⟨r, h, ?_, ?_, ?_, ?_, C112_refuted hm h0 ?_⟩
  · rw [hm.total]; norm_num [someClocks]
  · rw [hm.mapper]; norm_num [someClocks]
  · rw [hm.modeler 0 h0]; norm_num [someClocks]
  · rw [hm.solver 0 h0]; norm_num [someClocks]
  · norm_num [someClocks]

example : ∃ b, Measures someClocks lpStudy.nbScn b ∧ 0 ≤ b.mapper ∧ 0 ≤ b.total :=
  ⟨_, measured_measures _ _, (C112_partial (measured_measures _ _) someClocks_forward).1, (C112_partial (measured_measures _ _) someClocks_forward).2.1⟩

example : ∃ r, solveLpTimed someClocks 1 (List.range lpStudy.nbScn).reverse (fun _ => lpAnswer) lpStudy = .ok r ∧ r.networks = lpResult.networks := by
  obtain ⟨r, h⟩ := lpStudy_timed
  have ho : (List.range lpStudy.nbScn).reverse.Perm (List.range (Pool.nbChunks 1 lpStudy.nbScn)) := by
    unfold Pool.nbChunks
    simpa using List.reverse_perm _
  have := C112_same someClocks ⟨[], [], 0, 0⟩ (fun _ => lpAnswer) lpStudy one_pos ho
  rw [h, lpStudy_gives] at this
  exact ⟨r, h, (Prod.mk.inj (Option.some.inj this)).1⟩

end Hadar.Props
