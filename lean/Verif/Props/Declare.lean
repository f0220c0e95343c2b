import Verif.Proofs.Declare
import Verif.Props.LPExamples
import Verif.Props.Tables

/-!
# C134: which studies can be declared
-/

namespace Hadar.Props

open Hadar Spec World

/-- **C134.** The studies that calls of the building API can give are exactly those that make sense: unique names, links and converters
between existing nodes, series of the right size, elements that pass the checks. -/
theorem C134 (s : Study) : Built s ↔ WellFormed s := by
  refine ⟨wellFormed_of_built, fun hs => ?_⟩
  obtain ⟨cs, h1, _, h3⟩ := reach_of_wellFormed hs False False.elim
  exact ⟨s.horizon, s.nbScn, cs, h1, h3.symm⟩

/-- those that calls that are all accepted can give are the ones whose converters have a destination, or a source -/
theorem C134_accepted (s : Study) :
    (∃ h n cs, (∀ c ∈ cs, RawCall c) ∧ AllAccepted (start h n) cs ∧ s = ((start h n).run cs).study) ↔
      WellFormed s ∧ ConvertersDeclared s := by
  constructor
  · rintro ⟨h, n, cs, h1, h2, rfl⟩
    exact ⟨wellFormed_of_built ⟨h, n, cs, h1, rfl⟩,
      declared_run (worldInv_start h n) cs (by intro p hp; simp [start, Study.init] at hp) h2⟩
  · rintro ⟨hs, hc⟩
    obtain ⟨cs, h1, h2, h3⟩ := reach_of_wellFormed hs True fun _ => hc
    exact ⟨s.horizon, s.nbScn, cs, h1, h2 trivial, h3.symm⟩

/-- a study that makes sense and that `solve_lp` accepts has all properties proved of such studies, wherever it comes from -/
theorem C134_ready {s : Study} (hs : WellFormed s) (h1 : CompleteConverters s) (h2 : RatiosUsable s) (h3 : CleanSources s) : Ready s :=
  ⟨(C134 s).mpr hs, h1, h2, h3⟩

/-- some of the elements and converters of a study that can be declared, in any order, make a study that can be declared -/
theorem C134_part {s s' : Study} (hs : Built s) (hp : SomePart s' s) : Built s' := (C134 s').mpr (wellFormed_part ((C134 s).mp hs) hp)

/-! ### A study that nobody declared -/

instance (h n : ℕ) (v : NumVal) : Decidable (Fits h n v) := by
  obtain ⟨k, h', n'⟩ := v
  cases k <;> (unfold Fits; infer_instance)

instance (v : NumVal) : Decidable (SomeNonneg v) := by unfold SomeNonneg; infer_instance

/-- what has to be looked at -/
theorem wellFormed_of {s : Study} (hv : s.version = "0.5.0") (h1 : (s.networks.map Prod.fst).Nodup)
    (h2 : ∀ p ∈ s.networks, (p.2.nodes.map Prod.fst).Nodup) (h3 : (s.converters.map Prod.fst).Nodup)
    (h4 : ∀ p ∈ s.networks, ∀ a ∈ p.2.nodes, (a.2.consumptions.map (·.name)).Nodup ∧ (a.2.productions.map (·.name)).Nodup ∧
      (a.2.storages.map (·.name)).Nodup ∧ (a.2.links.map (·.dest)).Nodup ∧ ∀ l ∈ a.2.links, l.dest ∈ p.2.nodes.map Prod.fst)
    (h5 : ∀ p ∈ s.networks, ∀ a ∈ p.2.nodes,
      (∀ c ∈ a.2.consumptions, Fits s.horizon s.nbScn c.quantity ∧ Fits s.horizon s.nbScn c.cost ∧ SomeNonneg c.quantity) ∧
      (∀ c ∈ a.2.productions, Fits s.horizon s.nbScn c.quantity ∧ Fits s.horizon s.nbScn c.cost ∧ SomeNonneg c.quantity) ∧
      (∀ c ∈ a.2.links, Fits s.horizon s.nbScn c.quantity ∧ Fits s.horizon s.nbScn c.cost ∧ SomeNonneg c.quantity) ∧
      (∀ c ∈ a.2.storages, (Fits s.horizon s.nbScn c.capacity ∧ Fits s.horizon s.nbScn c.flowIn ∧ Fits s.horizon s.nbScn c.flowOut ∧
        Fits s.horizon s.nbScn c.cost ∧ Fits s.horizon s.nbScn c.eff) ∧ SomeNonneg c.capacity ∧ SomeNonneg c.flowIn ∧
        SomeNonneg c.flowOut ∧ 0 ≤ c.initCapacity ∧ SomeNonneg c.eff ∧ ∃ q ∈ given c.eff, q ≤ 1))
    (h6 : ∀ p ∈ s.converters, p.2.name = p.1 ∧ (p.2.srcRatios.map Prod.fst).Nodup ∧
      (∀ x ∈ p.2.srcRatios, Fits s.horizon s.nbScn x.2 ∧ ∃ q ∈ s.networks, ∃ a ∈ q.2.nodes, x.1 = [q.1, a.1]) ∧
      ∃ v ∈ [p.2.cost], ∃ m ∈ [p.2.max], v ≠ .int0 ∧ (∃ q ∈ s.networks, q.1 = p.2.destNetwork ∧ ∃ a ∈ q.2.nodes, a.1 = p.2.destNode) ∧
        (∀ x, v = .val x → Fits s.horizon s.nbScn x) ∧ ∀ x, m = .val x → Fits s.horizon s.nbScn x) : WellFormed s := by
  refine ⟨hv, ⟨h1, h2, ?_, ?_, ?_, ?_, h3, fun p hp => (h6 p hp).2.1⟩, ?_, ?_, ⟨?_, ?_⟩, ?_, ?_⟩
  · rintro g d n ⟨net, hg, hd⟩; exact (h4 _ hg _ hd).1
  · rintro g d n ⟨net, hg, hd⟩; exact (h4 _ hg _ hd).2.1
  · rintro g d n ⟨net, hg, hd⟩; exact (h4 _ hg _ hd).2.2.1
  · rintro g d n ⟨net, hg, hd⟩; exact (h4 _ hg _ hd).2.2.2.1
  · intro g net hg d n hd; exact (h4 _ hg _ hd).2.2.2.2
  · intro p hp
    obtain ⟨hn, _, hs, v, _, m, _, _, ⟨q, hq, e1, a, ha, e2⟩, _⟩ := h6 p hp
    refine ⟨hn, ?_, .inr ⟨a.2, q.2, by rw [← e1]; exact hq, by rw [← e2]; exact ha⟩⟩
    intro k hk
    obtain ⟨x, hx, rfl⟩ := List.mem_map.mp hk
    obtain ⟨_, q, hq, a, ha, e⟩ := hs x hx
    exact ⟨q.1, a.1, a.2, e, q.2, hq, ha⟩
  · rintro g d n ⟨net, hg, hd⟩
    obtain ⟨a1, a2, a3, a4⟩ := h5 _ hg _ hd
    exact ⟨fun c hc => ⟨(a1 c hc).1, (a1 c hc).2.1⟩, fun c hc => ⟨(a2 c hc).1, (a2 c hc).2.1⟩, fun c hc => (a4 c hc).1,
      fun c hc => ⟨(a3 c hc).1, (a3 c hc).2.1⟩⟩
  · intro p hp
    obtain ⟨_, _, hs, v, hv, m, hm, _, _, f1, f2⟩ := h6 p hp
    rw [List.mem_singleton] at hv hm
    subst hv hm
    exact ⟨fun x hx => (hs x hx).1, f1, f2⟩
  · rintro g d n ⟨net, hg, hd⟩
    obtain ⟨a1, a2, a3, a4⟩ := h5 _ hg _ hd
    exact ⟨fun c hc => (a1 c hc).2.2, fun c hc => (a2 c hc).2.2, fun c hc => (a4 c hc).2, fun c hc => (a3 c hc).2.2⟩
  · intro p hp e
    obtain ⟨_, _, _, v, hv, m, hm, hne, _⟩ := h6 p hp
    rw [List.mem_singleton] at hv
    subst hv
    exact absurd e hne

/-- a number -/
def flat (q : ℚ) : NumVal := ⟨.scalar q, 2, 2⟩

/-- two networks, series of all forms (one of them negative at times), a storage, a link and a converter, written down as is -/
def writtenStudy : Study :=
  ⟨"0.5.0",
   [("elec", ⟨[("a", ⟨[⟨flat 100, ⟨.row ⟨[2], [5, 9], rfl⟩, 2, 2⟩, "load"⟩], [⟨"gas", flat 10, ⟨.column ⟨[2, 1], [8, 3], rfl⟩, 2, 2⟩⟩],
        [⟨"tank", flat 4, flat 2, flat 2, flat 0, 1, flat (9/10)⟩], [⟨"b", flat 3, flat 1⟩]⟩),
      ("b", ⟨[], [⟨"sun", flat 1, ⟨.matrix ⟨[2, 2], [-1, 3, 2, 0], rfl⟩, 2, 2⟩⟩], [], []⟩)]⟩),
    ("heat", ⟨[("a", ⟨[⟨flat 50, flat 4, "house"⟩], [], [], []⟩)]⟩)],
   [("pump", ⟨"pump", [(["elec", "b"], flat (1/3))], "heat", "a", .val (flat 1), .val (flat 6)⟩)], 2, 2⟩

set_option synthInstance.maxHeartbeats 400000 in
set_option synthInstance.maxSize 2000 in
theorem writtenStudy_wellFormed : WellFormed writtenStudy := by
  refine wellFormed_of rfl (by decide +kernel) (by decide +kernel) (by decide +kernel) (by decide +kernel) (by decide +kernel) ?_
  intro p hp
  rw [show writtenStudy.converters = [("pump", ⟨"pump", [(["elec", "b"], flat (1/3))], "heat", "a", .val (flat 1), .val (flat 6)⟩)] from rfl,
    List.mem_singleton] at hp
  subst hp
  refine ⟨rfl, by decide +kernel, by decide +kernel, _, List.mem_singleton_self _, _, List.mem_singleton_self _, by simp,
    by decide +kernel, ?_, ?_⟩
  · intro x e
    cases e
    decide +kernel
  · intro x e
    cases e
    decide +kernel

/-- it could have been declared, and by calls that are all accepted -/
example : Built writtenStudy := (C134 writtenStudy).mpr writtenStudy_wellFormed

theorem writtenStudy_declared : ConvertersDeclared writtenStudy := by
  intro p hp
  rw [show writtenStudy.converters = [("pump", ⟨"pump", [(["elec", "b"], flat (1/3))], "heat", "a", .val (flat 1), .val (flat 6)⟩)] from rfl,
    List.mem_singleton] at hp
  subst hp
  exact .inr ⟨_, _, rfl, rfl⟩

example := (C134_accepted writtenStudy).mpr ⟨writtenStudy_wellFormed, writtenStudy_declared⟩

/-- so what is proved of studies holds for it -/
theorem writtenStudy_ready : Ready writtenStudy :=
  C134_ready writtenStudy_wellFormed (by unfold CompleteConverters; decide +kernel)
    (RatiosNonzero.usable (by unfold RatiosNonzero; decide +kernel)) (cleanSources_of (by decide +kernel))

/-- a study with a link to a node that does not exist cannot be declared -/
def lostLink : Study := ⟨"0.5.0", [("elec", ⟨[("a", ⟨[], [], [], [⟨"b", flat 3, flat 1⟩]⟩)]⟩)], [], 2, 2⟩

example : ¬ Built lostLink := by
  intro h
  have := ((C134 lostLink).mp h).links "elec" _ (List.mem_singleton_self _) "a" _ (List.mem_singleton_self _) ⟨"b", flat 3, flat 1⟩
    (List.mem_singleton_self _)
  simp at this

/-- nor one with series of another size -/
def missizedStudy : Study := ⟨"0.5.0", [("elec", ⟨[("a", ⟨[⟨flat 1, ⟨.row ⟨[3], [1, 2, 3], rfl⟩, 2, 2⟩, "load"⟩], [], [], []⟩)]⟩)], [], 2, 2⟩

example : ¬ Built missizedStudy := by
  intro h
  have := (((C134 missizedStudy).mp h).series.1 "elec" "a" _ ⟨_, List.mem_singleton_self _, List.mem_singleton_self _⟩).consumptions _
    (List.mem_singleton_self _)
  exact absurd this.1 (by decide +kernel)

/-- a converter that raised when declared is left without source and destination: no accepted call does that -/
def stuckStudy : Study := ⟨"0.5.0", [("elec", ⟨[("a", ⟨[], [], [], []⟩)]⟩)], [("c", ⟨"c", [], "", "", .int0, .int0⟩)], 2, 2⟩

theorem stuckStudy_built : Built stuckStudy :=
  ⟨2, 2, [.studyNetwork "elec", .netNode 0 "a", .nodeToConverter 0 "c" .other], rawCalls_of (by decide +kernel), by decide +kernel⟩

example : ¬ ∃ h n cs, (∀ c ∈ cs, RawCall c) ∧ AllAccepted (start h n) cs ∧ stuckStudy = ((start h n).run cs).study := by
  rw [C134_accepted]
  rintro ⟨_, h⟩
  have := h _ (List.mem_singleton_self _)
  simp at this

/-- without the storage, the link and the converter -/
def pieceStudy : Study :=
  ⟨"0.5.0",
   [("elec", ⟨[("a", ⟨[⟨flat 100, ⟨.row ⟨[2], [5, 9], rfl⟩, 2, 2⟩, "load"⟩], [], [], []⟩),
      ("b", ⟨[], [⟨"sun", flat 1, ⟨.matrix ⟨[2, 2], [-1, 3, 2, 0], rfl⟩, 2, 2⟩⟩], [], []⟩)]⟩),
    ("heat", ⟨[("a", ⟨[⟨flat 50, flat 4, "house"⟩], [], [], []⟩)]⟩)], [], 2, 2⟩

theorem pieceStudy_part : SomePart pieceStudy writtenStudy where
  version := rfl
  horizon := rfl
  nbScn := rfl
  networks := by
    unfold pieceStudy writtenStudy
    have nil : ∀ {α : Type} (l : List α), ([] : List α).Subperm l := fun l => List.nil_subperm
    refine .cons ⟨rfl, .cons ⟨rfl, ⟨.refl _, nil _, nil _, nil _⟩⟩ (.cons ⟨rfl, ⟨.refl _, .refl _, nil _, nil _⟩⟩ .nil)⟩
      (.cons ⟨rfl, .cons ⟨rfl, ⟨.refl _, nil _, nil _, nil _⟩⟩ .nil⟩ .nil)
  converters := List.nil_subperm

example : Built pieceStudy := C134_part ((C134 writtenStudy).mpr writtenStudy_wellFormed) pieceStudy_part

end Hadar.Props
