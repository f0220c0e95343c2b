import Verif.Proofs.LPWired
import Verif.Props.Accept

/-!
# C78: a solved study has no dangling link nor converter, however it was made
-/

namespace Hadar.Props

open Hadar Spec

/-- C78: whatever the study (read from JSON, changed by hand, ...), when `solve_lp` returns, links go to nodes of their
network and the ends of converters are nodes of the study. -/
theorem C78 {s : Study} (hu : Dictionaries s) (hn : 0 < s.nbScn) (hh : 0 < s.horizon) {solver : Solver} {b : Benchmark}
    {r : Result} (hr : solveLp solver b s = .ok r) : Wired s := by
  unfold solveLp at hr
  simp only [bind, Except.bind] at hr
  split at hr
  · cases hr
  rename_i outs houts
  obtain ⟨y, hy⟩ := mapM_ok_each houts 0 (by simpa using hn)
  unfold solveBatch at hy
  simp only [bind, Except.bind] at hy
  split at hy
  · cases hy
  · rename_i x hx
    exact wired_of_build hu hx hh

/-! ### Concrete cases -/

/-- the hypotheses are met by a study with links and converters -/
example : ∃ r, solveLp (fun _ => lpAnswer) ⟨[], [], 0, 0⟩ lpStudy = .ok r ∧ Dictionaries lpStudy ∧ Wired lpStudy := by
  obtain ⟨r, hr⟩ := (C70 lpStudy_ready.built lpStudy_distinct (by decide +kernel) (by decide +kernel)
    (fun _ => lpAnswer) ⟨[], [], 0, 0⟩).mpr ⟨lpStudy_ready.complete, lpStudy_ready.ratios, lpStudy_ready.clean⟩
  have hd : Dictionaries lpStudy := ⟨by decide +kernel, by decide +kernel, by decide +kernel⟩
  exact ⟨r, hr, hd, C78 hd (by decide +kernel) (by decide +kernel) hr⟩

/-- a study, as a JSON file may describe it, with a link to a node that does not exist ... -/
def danglingLink : Study :=
  ⟨"0.5.0", [("default", ⟨[("a", ⟨[], [], [], [⟨"b", ⟨.scalar 1, 1, 1⟩, ⟨.scalar 1, 1, 1⟩⟩]⟩)]⟩)], [], 1, 1⟩

/-- ... and one with a converter whose source has three parts -/
def oddSource : Study :=
  ⟨"0.5.0", [("default", ⟨[("a", ⟨[], [], [], []⟩)]⟩)],
    [("conv", ⟨"conv", [(["default", "a", "x"], ⟨.scalar 1, 1, 1⟩)], "default", "a", .val ⟨.scalar 1, 1, 1⟩,
      .val ⟨.scalar 1, 1, 1⟩⟩)], 1, 1⟩

example (solver : Solver) (b : Benchmark) (r : Result) : solveLp solver b danglingLink ≠ .ok r := by
  intro hr
  have hw := C78 ⟨by decide +kernel, by decide +kernel, by decide +kernel⟩ (by decide +kernel) (by decide +kernel) hr
  obtain ⟨n, net, hg, hd⟩ := hw.links "default" "a" _ ⟨_, List.mem_cons_self, List.mem_cons_self⟩ _ List.mem_cons_self
  have h : ∀ p ∈ danglingLink.networks, ∀ q ∈ p.2.nodes, q.1 ≠ "b" := by decide +kernel
  exact h _ hg _ hd rfl

example (solver : Solver) (b : Benchmark) (r : Result) : solveLp solver b oddSource ≠ .ok r := by
  intro hr
  have hw := C78 ⟨by decide +kernel, by decide +kernel, by decide +kernel⟩ (by decide +kernel) (by decide +kernel) hr
  obtain ⟨g, d, n, h, _⟩ := hw.sources _ List.mem_cons_self _ List.mem_cons_self
  simp at h

end Hadar.Props
