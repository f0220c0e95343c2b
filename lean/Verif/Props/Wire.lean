import Verif.Proofs.WireSteps
import Verif.Proofs.Pool
import Verif.Props.LPExamples
import Verif.Props.Accept

/-!
# C103: types of numbers

An accepted study can be sent as JSON and solved whatever the types of its numbers.
-/

namespace Hadar.Props

open Hadar Spec PyTree

variable {s : Study} {ty : Types} {solver : Solver} {b : Benchmark} {r : Result}

/-- the claim -/
def C103_claim : Prop := ∀ s ty solver b r, Built s → GivenTypes ty s → solveLp solver b s = .ok r →
  (s.tree ty).convert.wire = some s.toJson ∧ solveLpTyped ty solver b s = .ok r

theorem built_dictionaries (h : Built s) : Dictionaries s :=
  have hi := Built.inv h
  ⟨hi.names.networks, hi.names.nodes, hi.names.converters⟩

/-- C103: arrays of any type can be sent as JSON, and what arrives does not depend on the types of the
numbers. Only an initial level of a storage given with another type than Python's numbers, `int64` and
`float64` stops it. -/
theorem C103_json (h : GivenTypes ty s) :
    ((s.tree ty).convert.wire.isSome ↔ KnownLevels ty s) ∧
      (KnownLevels ty s → (s.tree ty).convert.wire = some s.toJson) := Study.wire_tree_iff h

/-- C103: numbers of known types are solved as if they had no type -/
theorem C103_known_partial (hb : Built s) (hk : KnownTypes ty s) (solver : Solver) (b : Benchmark) :
    solveLpTyped ty solver b s = solveLp solver b s := by
  unfold solveLpTyped solveLp
  rw [show solveBatchTyped ty solver s = solveBatch solver s from
    funext fun k => solveBatchTyped_eq (built_dictionaries hb) hk solver k]

/-- C103: a result can always be sent as JSON, whatever the types of its arrays -/
theorem C103_result (ty : Types) (r : Result) : (r.tree ty).convert.wire = some r.toJson := Result.wire_tree ty r

theorem mapM_error_first {α β : Type} {f : α → Except PyErr β} {l : List α} {e : PyErr} (hl : l ≠ [])
    (h : ∀ x ∈ l, f x = .error e) : l.mapM f = .error e := by
  cases l with
  | nil => exact absurd rfl hl
  | cons a l => rw [List.mapM_cons, h a (by simp)]; rfl

/-- C103: exactly the studies whose numbers all have a known type can be solved; the others stop with
`TypeError` -/
theorem C103_exact (hb : Built s) (hd : DistinctSources s) (hn : 0 < s.nbScn) (hh : 0 < s.horizon)
    (hr : solveLp solver b s = .ok r) :
    (KnownTypes ty s → solveLpTyped ty solver b s = .ok r) ∧
      (¬ KnownTypes ty s → solveLpTyped ty solver b s = .error .typeError) := by
  refine ⟨fun hk => (C103_known_partial hb hk solver b).trans hr, fun hk => ?_⟩
  unfold solveLp at hr
  rw [except_bind_ok] at hr
  obtain ⟨outs, ho, -⟩ := hr
  unfold solveLpTyped
  rw [mapM_error_first (e := .typeError) (by simpa using Nat.pos_iff_ne_zero.mp hn)]
  · rfl
  · intro k hk'
    obtain ⟨y, hy⟩ := Pool.mapM_ok_inv ho k hk'
    exact solveBatchTyped_error (built_dictionaries hb) hd hh hk solver hy

/-- the load at node `a` given as an array of `float32`, the rest as Python numbers -/
def floatTypes : Types
  | .cons "elec" "a" 0, "quantity" => .other
  | _, _ => .float

/-- a load of 10 given as an array -/
def arrayCalls : List Call :=
  [.studyNetwork "elec", .netNode 0 "a",
   .nodeConsumption 0 "load" (.num 100) (.array ⟨[1], [10], rfl⟩),
   .nodeProduction 0 "nuke" (.num 20) (.num 15)]

/-- its study -/
def arrayStudy : Study := ((World.start 1 1).run arrayCalls).study

theorem arrayStudy_ready : Ready arrayStudy where
  built := ⟨1, 1, arrayCalls, by
    intro c hc
    simp only [arrayCalls, List.mem_cons, List.not_mem_nil, or_false] at hc
    rcases hc with rfl | rfl | rfl | rfl <;> simp [RawCall], rfl⟩
  complete := by unfold CompleteConverters; decide +kernel
  ratios := RatiosNonzero.usable (by unfold RatiosNonzero; decide +kernel)
  clean := cleanSources_of (by decide +kernel)

theorem arrayStudy_given : GivenTypes floatTypes arrayStudy := by
  have e : arrayStudy.networks = [("elec", ⟨[("a", ⟨[⟨⟨.scalar 100, 1, 1⟩, ⟨.row ⟨[1], [10], rfl⟩, 1, 1⟩, "load"⟩],
      [⟨"nuke", ⟨.scalar 20, 1, 1⟩, ⟨.scalar 15, 1, 1⟩⟩], [], []⟩)]⟩)] := by decide +kernel
  have hn : ∀ g d n, HasNode arrayStudy g d n → g = "elec" ∧ d = "a" ∧
      n = ⟨[⟨⟨.scalar 100, 1, 1⟩, ⟨.row ⟨[1], [10], rfl⟩, 1, 1⟩, "load"⟩],
        [⟨"nuke", ⟨.scalar 20, 1, 1⟩, ⟨.scalar 15, 1, 1⟩⟩], [], []⟩ := by
    rintro g d n ⟨net, hg, hd⟩
    rw [e] at hg
    simp only [List.mem_cons, List.not_mem_nil, or_false, Prod.mk.injEq] at hg
    obtain ⟨rfl, rfl⟩ := hg
    simp only [List.mem_cons, List.not_mem_nil, or_false, Prod.mk.injEq] at hd
    exact ⟨rfl, hd⟩
  constructor
  · intro g d n h i c hc
    obtain ⟨rfl, rfl, rfl⟩ := hn g d n h
    cases i with
    | zero =>
      simp only [List.getElem?_cons_zero, Option.some.injEq] at hc
      subst hc
      exact ⟨fun _ => .inr rfl, fun h => by cases h⟩
    | succ i => simp at hc
  · intro g d n h i c hc
    obtain ⟨rfl, rfl, rfl⟩ := hn g d n h
    exact ⟨fun _ => .inr rfl, fun _ => .inr rfl⟩
  · intro g d n h i c hc
    obtain ⟨rfl, rfl, rfl⟩ := hn g d n h
    simp at hc
  · intro g d n h i c hc
    obtain ⟨rfl, rfl, rfl⟩ := hn g d n h
    simp at hc
  · intro p hp
    have : arrayStudy.converters = [] := by decide +kernel
    rw [this] at hp
    simp at hp

/-- the types of the levels of a study without storage -/
theorem arrayStudy_levels : KnownLevels floatTypes arrayStudy := fun _ _ _ _ _ _ h => by cases h

/-- C103 refuted: a load given as an array of `float32` is accepted and can be sent as JSON, but solving
it raises `TypeError` -/
theorem C103_refuted : ∃ s ty solver b r, Built s ∧ GivenTypes ty s ∧ solveLp solver b s = .ok r ∧
    (s.tree ty).convert.wire = some s.toJson ∧ solveLpTyped ty solver b s = .error .typeError := by
  have hr := Ready.solve arrayStudy_ready (fun _ => selfAnswer) ⟨[], [], 0, 0⟩
  refine ⟨arrayStudy, floatTypes, _, _, _, arrayStudy_ready.built, arrayStudy_given, hr,
    (C103_json arrayStudy_given).2 arrayStudy_levels,
    (C103_exact arrayStudy_ready.built (by unfold DistinctSources; decide +kernel) (by decide +kernel)
      (by decide +kernel) hr).2 fun hk => ?_⟩
  exact hk.consumptions "elec" "a" (inNode arrayStudy "elec" "a") ⟨_, List.mem_cons_self, List.mem_cons_self⟩ 0
    (by decide +kernel) "quantity" (by simp) rfl

/-- the initial level given as a `float32`, the rest as Python numbers -/
def levelTypes : Types
  | .stor _ _ _, "init_capacity" => .other
  | _, _ => .float

/-- numbers that are all Python numbers but initial levels satisfy the hypothesis -/
theorem levelTypes_given (s : Study) : GivenTypes levelTypes s where
  consumptions _ _ _ _ _ _ _ := ⟨fun _ => .inr rfl, fun _ => .inr rfl⟩
  productions _ _ _ _ _ _ _ := ⟨fun _ => .inr rfl, fun _ => .inr rfl⟩
  storages _ _ _ _ _ _ _ := ⟨fun _ => .inr rfl, fun _ => .inr rfl, fun _ => .inr rfl, fun _ => .inr rfl, fun _ => .inr rfl⟩
  links _ _ _ _ _ _ _ := ⟨fun _ => .inr rfl, fun _ => .inr rfl⟩
  converters _ _ := ⟨fun _ => .inr rfl, fun _ => .inr rfl, fun _ _ _ => .inr rfl⟩

/-- C103 refuted: a study with a storage whose initial level is a `float32` can be neither sent as JSON
nor solved -/
theorem C103_json_refuted : ∃ s ty solver b r, Built s ∧ GivenTypes ty s ∧ solveLp solver b s = .ok r ∧
    (s.tree ty).convert.wire = none ∧ solveLpTyped ty solver b s = .error .typeError := by
  have hr := Ready.solve lpStudy_ready (fun _ => lpAnswer) ⟨[], [], 0, 0⟩
  have hn : HasNode lpStudy "elec" "b" (inNode lpStudy "elec" "b") :=
    hasNode_inNode (by decide +kernel)
  have hl : 0 < (inNode lpStudy "elec" "b").storages.length := by decide +kernel
  refine ⟨lpStudy, levelTypes, _, _, _, lpStudy_ready.built, levelTypes_given _, hr, ?_,
    (C103_exact lpStudy_ready.built (by unfold DistinctSources; decide +kernel) (by decide +kernel)
      (by decide +kernel) hr).2 fun hk => hk.storages _ _ _ hn 0 hl "init_capacity" (by simp) rfl⟩
  rw [← Option.not_isSome_iff_eq_none, (C103_json (levelTypes_given _)).1]
  exact fun hk => hk _ _ _ hn 0 hl rfl

/-- integers for costs, floats elsewhere, one array of each type known to the code -/
def someTypes : Types
  | .prod _ _ _, "quantity" => .int64
  | .cons _ _ _, "quantity" => .float64
  | _, "cost" => .int
  | _, _ => .float

example : KnownTypes someTypes lpStudy ∧ Built lpStudy ∧ DistinctSources lpStudy ∧
    ∃ r, solveLpTyped someTypes (fun _ => lpAnswer) ⟨[], [], 0, 0⟩ lpStudy = .ok r := by
  have hk : KnownTypes someTypes lpStudy := by
    constructor
    all_goals first
      | (intro g d n _ i _ f hf
         simp only [List.mem_cons, List.not_mem_nil, or_false] at hf
         rcases hf with rfl | rfl | rfl | rfl | rfl | rfl <;> simp [someTypes])
      | (intro p _
         refine ⟨fun f hf => ?_, fun q _ => by simp [someTypes]⟩
         simp only [List.mem_cons, List.not_mem_nil, or_false] at hf
         rcases hf with rfl | rfl <;> simp [someTypes])
  exact ⟨hk, lpStudy_ready.built, by unfold DistinctSources; decide +kernel, _,
    (C103_known_partial lpStudy_ready.built hk _ _).trans (Ready.solve lpStudy_ready _ _)⟩

/-! ### The theorems applied to concrete cases -/

example := C103_json arrayStudy_given

example : (arrayStudy.tree floatTypes).convert.wire = some arrayStudy.toJson := (C103_json arrayStudy_given).2 arrayStudy_levels

example := C103_exact (ty := levelTypes) lpStudy_ready.built (by unfold DistinctSources; decide +kernel) (by decide +kernel)
  (by decide +kernel) (Ready.solve lpStudy_ready (fun _ => lpAnswer) ⟨[], [], 0, 0⟩)

end Hadar.Props
