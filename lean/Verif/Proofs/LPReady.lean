import Verif.Proofs.LPMerit
import Verif.Proofs.Pool
import Verif.Proofs.Fluent

/-!
# Studies the optimizer accepts
-/

namespace Hadar

open Spec

theorem Built.inv {s : Study} (h : Built s) : StudyInv s := by
  obtain ⟨h, n, cs, _, rfl⟩ := h
  exact (World.reachable_inv h n cs).study

theorem Built.usable {s : Study} (hb : Built s) : AllUsable s := by
  obtain ⟨h, n, cs, hr, rfl⟩ := hb
  have h0 : AllUsable (World.start h n).study := by
    refine ⟨?_, ?_⟩
    · rintro g d nd ⟨net, hg, _⟩
      simp [World.start, Study.init] at hg
    · intro p hp
      simp [World.start, Study.init] at hp
  exact World.run_usable (World.reachable_inv h n []) h0 cs hr

theorem Ready.solve {s : Study} (h : Ready s) (solver : Solver) (b : Benchmark) :
    solveLp solver b s = .ok (resultAll s (valsOf solver s) b) :=
  solveLp_ok (Built.inv h.built) (Built.usable h.built) h.complete h.ratios h.clean solver b

theorem Ready.result {s : Study} (h : Ready s) {solver : Solver} {b : Benchmark} {r : Result}
    (hr : solveLp solver b s = .ok r) : r = resultAll s (valsOf solver s) b := by
  rw [Ready.solve h] at hr
  cases hr; rfl

theorem Ready.build {s : Study} (h : Ready s) {k : ℕ} (hk : k < s.nbScn) :
    buildAll s k = .ok ((List.range s.horizon).map (timeStepOf s k), fullLog s k) :=
  buildAll_ok (Built.inv h.built) (Built.usable h.built) h.complete h.ratios hk

theorem Ready.answer {s : Study} (h : Ready s) {solver : Solver} {k : ℕ} (hk : k < s.nbScn)
    {P : List Cmd → (Var → ℚ) → Prop} (ha : Answers solver s k P) :
    P (fullLog s k) (valsOf solver s k) := ha _ _ (Ready.build h hk)

theorem cleanSources_of {s : Study}
    (h : ∀ p ∈ s.converters, ∀ key ∈ p.2.srcRatios.map Prod.fst, splitKey (joinKey key) = key) :
    CleanSources s := fun p hp _ _ hk => cleanPair_of_split (h p hp _ hk)

theorem resultOk_all {s : Study} (h : Ready s) (hn : 0 < s.nbScn) (X : Vals) (b : Benchmark) :
    ResultOk (resultAll s X b) := by
  have hi := Built.inv h.built
  have hd : ∀ f, Dense (ofCells s.nbScn s.horizon f) := by
    intro f
    simp only [Dense, ofCells, List.dropLast_cons₂, List.dropLast_singleton, List.mem_singleton]
    omega
  refine ⟨?_, ?_, ?_, ?_, ?_, ?_, ?_⟩
  · simpa [resultAll, Function.comp_def] using hi.names.networks
  · intro p hp
    obtain ⟨q, hq, rfl⟩ := List.mem_map.mp hp
    simpa [Function.comp_def] using hi.names.nodes q hq
  · intro p hp q hq
    obtain ⟨p', hp', rfl⟩ := List.mem_map.mp hp
    obtain ⟨q', hq', rfl⟩ := List.mem_map.mp hq
    refine ⟨?_, ?_, ?_, ?_⟩
    all_goals
      intro c hc
      obtain ⟨x, _, rfl⟩ := List.mem_map.mp hc
    · exact hd _
    · exact hd _
    · exact ⟨hd _, hd _, hd _⟩
    · exact hd _
  · simpa [resultAll, Function.comp_def] using hi.names.converters
  · intro p hp
    obtain ⟨q, hq, rfl⟩ := List.mem_map.mp hp
    simpa [convAll, Function.comp_def] using hi.names.sources q hq
  · intro p hp key hkey
    obtain ⟨q, hq, rfl⟩ := List.mem_map.mp hp
    have hkey : key ∈ q.2.srcRatios.map Prod.fst := by
      simpa [convAll, Function.comp_def] using hkey
    obtain ⟨g, d, _, e, _⟩ := (hi.convs q hq).sources key hkey
    subst e
    exact ⟨g, d, rfl, h.clean q hq g d hkey⟩
  · intro p hp
    obtain ⟨q, hq, rfl⟩ := List.mem_map.mp hp
    refine ⟨?_, hd _⟩
    intro x hx
    obtain ⟨y, _, rfl⟩ := List.mem_map.mp hx
    exact hd _

end Hadar
