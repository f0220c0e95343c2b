import Verif.Proofs.Parts
import Verif.Props.LPExamples
import Verif.Props.Tables
import Verif.Props.Optimum

/-!
# C74: parts of a study that do not interact are optimized independently
-/

namespace Hadar.Props

open Hadar Spec

variable {s s' : Study} {solver solver' : Solver} {b b' : Benchmark} {r r' : Result} {k k' : ℕ} {P : Part}

/-- C74: the result costs the least in each part of the study that does not interact with the rest, even among the dispatches of studies
with other data in the rest -/
theorem C74 (hs : Ready s) (hs' : Ready s') (hk : k < s.nbScn) (hk' : k' < s'.nbScn) (hcl : P.Closed s)
    (hsame : SamePart P s k s' k') (hr : solveLp solver b s = .ok r) (hr' : solveLp solver' b' s' = .ok r')
    (ha : Answers solver s k Cmd.Optimal) (ha' : Answers solver' s' k' Cmd.Feasible) :
    costIn P s k (dispatchOf s r k) ≤ costIn P s' k' (dispatchOf s' r' k') := by
  obtain rfl := Ready.result hs hr
  obtain rfl := Ready.result hs' hr'
  have ho := optimal_result (Built.inv hs.built) hk _ b (Ready.answer hs hk ha)
  have hf := (codeFeasible_iff (Built.inv hs'.built) hk' _ b').mp (Ready.answer hs' hk' ha')
  exact part_least hcl hsame ho.1 ho.2 hf

/-- C74: so changing the data of the rest does not change what the part costs -/
theorem C74_equal (hs : Ready s) (hs' : Ready s') (hk : k < s.nbScn) (hk' : k' < s'.nbScn) (hcl : P.Closed s)
    (hsame : SamePart P s k s' k') (hr : solveLp solver b s = .ok r) (hr' : solveLp solver' b' s' = .ok r')
    (ha : Answers solver s k Cmd.Optimal) (ha' : Answers solver' s' k' Cmd.Optimal) :
    costIn P s k (dispatchOf s r k) = costIn P s' k' (dispatchOf s' r' k') :=
  le_antisymm (C74 hs hs' hk hk' hcl hsame hr hr' ha fun steps log h => (ha' steps log h).1)
    (C74 hs' hs hk' hk (Part.Closed.same hcl hsame) (SamePart.symm hsame) hr' hr ha' fun steps log h => (ha steps log h).1)

/-- C74: without storages, each time step costs the least it can -/
theorem C74_time (hs : Ready s) (hn : ∀ g d n, HasNode s g d n → n.storages = []) (hself : NoSelfLink s)
    (hk : k < s.nbScn) (hr : solveLp solver b s = .ok r) (ha : Answers solver s k Cmd.Optimal) {t : ℕ}
    (ht : t < s.horizon) {D : Dispatch} (hD : Spec.Feasible s k D) :
    stepCost s k (dispatchOf s r k) t ≤ stepCost s k D t := by
  obtain rfl := Ready.result hs hr
  have ho := optimal_result (Built.inv hs.built) hk _ b (Ready.answer hs hk ha)
  have hcl : Part.Closed ⟨fun _ _ t' => t' = t, fun _ t' => t' = t⟩ s := by
    constructor
    · intros; rfl
    · intro g d n hd hne
      exact absurd (hn g d n hd) hne
    · intros; rfl
    · intros; rfl
  have e : ∀ E, costIn ⟨fun _ _ t' => t' = t, fun _ t' => t' = t⟩ s k E = stepCost s k E t := by
    intro E
    have h0 : costIn ⟨fun _ _ t' => t' = t, fun _ t' => t' = t⟩ s k E =
        sumL (List.range s.horizon) fun t' => if t' = t then stepCost s k E t else 0 := by
      unfold costIn
      apply sumL_congr
      intro t' _
      by_cases h : t' = t
      · subst h
        simp [stepCost]
      · simp [h, sumL]
    rw [h0]
    have := sumL_bump (f := fun t' => if t' = t then stepCost s k E t else 0) (g := fun _ => 0) List.nodup_range
      (by simpa using ht) (a := t) (e := stepCost s k E t) (by simp) (by intro b _ hb; simp [hb])
    rw [this, sumL_zero, zero_add]
  rw [← e, ← e]
  exact part_least hcl (SamePart.refl _ s k) ho.1 ho.2 (code_of_feasible hself hD)

/-- C74: without converters, each network costs the least it can -/
theorem C74_network (hs : Ready s) (hn : s.converters = []) (hself : NoSelfLink s)
    (hk : k < s.nbScn) (hr : solveLp solver b s = .ok r) (ha : Answers solver s k Cmd.Optimal) (g : String)
    {D : Dispatch} (hD : Spec.Feasible s k D) :
    networkCost s k (dispatchOf s r k) g ≤ networkCost s k D g := by
  obtain rfl := Ready.result hs hr
  have ho := optimal_result (Built.inv hs.built) hk _ b (Ready.answer hs hk ha)
  have hcl : Part.Closed ⟨fun g' _ _ => g' = g, fun _ _ => False⟩ s := by
    constructor
    · intros; rfl
    · intros; rfl
    · intro p hp; rw [hn] at hp; cases hp
    · intro p hp; rw [hn] at hp; cases hp
  have e : ∀ E, costIn ⟨fun g' _ _ => g' = g, fun _ _ => False⟩ s k E = networkCost s k E g := by
    intro E
    unfold costIn networkCost
    apply sumL_congr
    intro t _
    rw [hn, sumL_filter]
    have : ∀ f : String × Converter → ℚ, sumL [] f = 0 := by intro f; rfl
    rw [this, add_zero]
    apply sumL_congr
    intro p _
    by_cases h : p.1 = g
    · simp [h]
    · simp [h, sumL]
  rw [← e, ← e]
  exact part_least hcl (SamePart.refl _ s k) ho.1 ho.2 (code_of_feasible hself hD)

/-! ### A concrete case: two time steps and two networks, without storage nor converter -/

def partCalls : List Call :=
  [.studyNetwork "elec", .netNode 0 "a", .nodeConsumption 0 "load" (.num 100) (.array ⟨[2], [3, 8], rfl⟩),
   .nodeProduction 0 "nuke" (.num 20) (.num 5), .netNode 0 "b", .nodeProduction 0 "fuel" (.num 70) (.num 2),
   .netLink 0 "b" "a" (.num 1) (.num 1),
   .studyNetwork "gas", .netNode 1 "g", .nodeConsumption 1 "heat" (.num 50) (.num 1),
   .nodeProduction 1 "well" (.num 1) (.num 10)]

def partStudy : Study := ((World.start 2 1).run partCalls).study

theorem partStudy_ready : Ready partStudy where
  built := ⟨2, 1, partCalls, rawCalls_of (by decide +kernel), rfl⟩
  complete := by unfold CompleteConverters; decide +kernel
  ratios := RatiosNonzero.usable (by unfold RatiosNonzero; decide +kernel)
  clean := cleanSources_of (by decide +kernel)

theorem partStudy_noSelf : NoSelfLink partStudy := by
  rintro g d n ⟨net, hg, hd⟩
  have : ∀ p ∈ partStudy.networks, ∀ q ∈ p.2.nodes, ∀ l ∈ q.2.links, l.dest ≠ q.1 := by decide +kernel
  exact this _ hg _ hd

theorem partStudy_limits : LimitsOk partStudy 0 := by
  have h : ∀ p ∈ partStudy.networks, ∀ q ∈ p.2.nodes,
      (∀ c ∈ q.2.consumptions, ∀ t < partStudy.horizon, 0 ≤ val c.quantity 0 t) ∧
      (∀ c ∈ q.2.productions, ∀ t < partStudy.horizon, 0 ≤ val c.quantity 0 t) ∧
      (∀ c ∈ q.2.links, ∀ t < partStudy.horizon, 0 ≤ val c.quantity 0 t) ∧ q.2.storages = [] := by decide +kernel
  refine ⟨?_, ?_, ?_, ?_, ?_⟩
  · rintro g d n ⟨net, hg, hd⟩; exact (h _ hg _ hd).1
  · rintro g d n ⟨net, hg, hd⟩; exact (h _ hg _ hd).2.1
  · rintro g d n ⟨net, hg, hd⟩; exact (h _ hg _ hd).2.2.1
  · rintro g d n ⟨net, hg, hd⟩ c hc
    rw [(h _ hg _ hd).2.2.2] at hc
    cases hc
  · have : partStudy.converters = [] := by decide +kernel
    rw [this]
    intro p hp
    cases hp

example : ∃ solver r, solveLp solver ⟨[], [], 0, 0⟩ partStudy = .ok r ∧ ∀ D, Spec.Feasible partStudy 0 D →
    stepCost partStudy 0 (dispatchOf partStudy r 0) 1 ≤ stepCost partStudy 0 D 1 ∧
    networkCost partStudy 0 (dispatchOf partStudy r 0) "gas" ≤ networkCost partStudy 0 D "gas" := by
  obtain ⟨solver, h⟩ := C71_solver
  have ha := h partStudy partStudy_ready 0 (by decide +kernel) partStudy_limits
  have hr := Ready.solve partStudy_ready solver ⟨[], [], 0, 0⟩
  refine ⟨solver, _, hr, fun D hD => ⟨?_, ?_⟩⟩
  · refine C74_time partStudy_ready ?_ partStudy_noSelf (by decide +kernel) hr ha (by decide +kernel) hD
    rintro g d n ⟨net, hg, hd⟩
    have : ∀ p ∈ partStudy.networks, ∀ q ∈ p.2.nodes, q.2.storages = [] := by decide +kernel
    exact this _ hg _ hd
  · exact C74_network partStudy_ready (by decide +kernel) partStudy_noSelf (by decide +kernel) hr ha "gas" hD

/-! ### The theorems applied to concrete cases -/

/-- `partStudy` with another heat and another well -/
def warmCalls : List Call :=
  [.studyNetwork "elec", .netNode 0 "a", .nodeConsumption 0 "load" (.num 100) (.array ⟨[2], [3, 8], rfl⟩),
   .nodeProduction 0 "nuke" (.num 20) (.num 5), .netNode 0 "b", .nodeProduction 0 "fuel" (.num 70) (.num 2),
   .netLink 0 "b" "a" (.num 1) (.num 1),
   .studyNetwork "gas", .netNode 1 "g", .nodeConsumption 1 "heat" (.num 60) (.num 4),
   .nodeProduction 1 "well" (.num 2) (.num 3)]

def warmStudy : Study := ((World.start 2 1).run warmCalls).study

theorem warm_ready : Ready warmStudy where
  built := ⟨2, 1, warmCalls, rawCalls_of (by decide +kernel), rfl⟩
  complete := by unfold CompleteConverters; decide +kernel
  ratios := RatiosNonzero.usable (by unfold RatiosNonzero; decide +kernel)
  clean := cleanSources_of (by decide +kernel)

theorem warm_limits : LimitsOk warmStudy 0 := by
  have h : ∀ p ∈ warmStudy.networks, ∀ q ∈ p.2.nodes,
      (∀ c ∈ q.2.consumptions, ∀ t < warmStudy.horizon, 0 ≤ val c.quantity 0 t) ∧
      (∀ c ∈ q.2.productions, ∀ t < warmStudy.horizon, 0 ≤ val c.quantity 0 t) ∧
      (∀ c ∈ q.2.links, ∀ t < warmStudy.horizon, 0 ≤ val c.quantity 0 t) ∧ q.2.storages = [] := by decide +kernel
  refine ⟨?_, ?_, ?_, ?_, ?_⟩
  · rintro g d n ⟨net, hg, hd⟩; exact (h _ hg _ hd).1
  · rintro g d n ⟨net, hg, hd⟩; exact (h _ hg _ hd).2.1
  · rintro g d n ⟨net, hg, hd⟩; exact (h _ hg _ hd).2.2.1
  · rintro g d n ⟨net, hg, hd⟩ c hc
    rw [(h _ hg _ hd).2.2.2] at hc
    cases hc
  · have : warmStudy.converters = [] := by decide +kernel
    rw [this]
    intro p hp
    cases hp

/-- the network `elec` -/
def elecPart : Part := ⟨fun g _ _ => g = "elec", fun _ _ => False⟩

theorem elec_closed : elecPart.Closed partStudy := by
  have hn : partStudy.converters = [] := by decide +kernel
  constructor
  · intros; rfl
  · intros; rfl
  · intro p hp; rw [hn] at hp; cases hp
  · intro p hp; rw [hn] at hp; cases hp

instance (T : ℕ → Prop) [DecidablePred T] (h k k' : ℕ) (v v' : NumVal) : Decidable (SameAt T h k k' v v') :=
  inferInstanceAs (Decidable (∀ t < h, _))

instance (T : ℕ → Prop) [DecidablePred T] (h k k' : ℕ) (n n' : InputNode) : Decidable (SameNodeAt T h k k' n n') :=
  decidable_of_iff (_ ∧ _ ∧ _ ∧ _) ⟨fun h => ⟨h.1, h.2.1, h.2.2.1, h.2.2.2⟩, fun h => ⟨h.1, h.2, h.3, h.4⟩⟩

theorem elec_same : SamePart elecPart partStudy 0 warmStudy 0 := by
  have h : List.Forall₂ (fun p q : String × InputNetwork => p.1 = q.1 ∧ List.Forall₂ (fun a b : String × InputNode => a.1 = b.1 ∧
      SameNodeAt (fun _ => p.1 = "elec") partStudy.horizon 0 0 a.2 b.2) p.2.nodes q.2.nodes) partStudy.networks warmStudy.networks := by
    decide +kernel
  exact ⟨by decide +kernel, h, by exact .nil⟩

/-- what network `elec` costs does not depend on gas -/
example : ∃ solver r r', solveLp solver ⟨[], [], 0, 0⟩ partStudy = .ok r ∧ solveLp solver ⟨[], [], 0, 0⟩ warmStudy = .ok r' ∧
    costIn elecPart partStudy 0 (dispatchOf partStudy r 0) ≤ costIn elecPart warmStudy 0 (dispatchOf warmStudy r' 0) ∧
    costIn elecPart partStudy 0 (dispatchOf partStudy r 0) = costIn elecPart warmStudy 0 (dispatchOf warmStudy r' 0) := by
  obtain ⟨solver, h⟩ := C71_solver
  have ha := h partStudy partStudy_ready 0 (by decide +kernel) partStudy_limits
  have ha' := h warmStudy warm_ready 0 (by decide +kernel) warm_limits
  have hr := Ready.solve partStudy_ready solver ⟨[], [], 0, 0⟩
  have hr' := Ready.solve warm_ready solver ⟨[], [], 0, 0⟩
  exact ⟨solver, _, _, hr, hr', C74 partStudy_ready warm_ready (by decide +kernel) (by decide +kernel) elec_closed elec_same hr hr' ha
    (fun st log hb => (ha' st log hb).1), C74_equal partStudy_ready warm_ready (by decide +kernel) (by decide +kernel) elec_closed
    elec_same hr hr' ha ha'⟩

end Hadar.Props
