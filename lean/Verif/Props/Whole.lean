import Verif.Proofs.WholeFlows
import Verif.Props.Optimum
import Verif.Props.Route

/-!
# C124: whole units in, whole units out
-/

namespace Hadar.Props

open Hadar Spec World

variable {s : Study} {k : ℕ} {solver : Solver} {b : Benchmark} {r : Result} {u v : ℚ}

/-- C124: when costs are in whole units, prices can be given in whole units -/
theorem C124_prices (hs : Ready s) (hself : NoSelfLink s) (hk : k < s.nbScn) (hr : solveLp solver b s = .ok r)
    (ha : Answers solver s k Cmd.Optimal) (hone : OneForOne s k) (hu : 0 < u) (hc : CostsIn u s k) :
    ∃ P, PricesIn u P ∧ Equilibrium s k (dispatchOf s r k) P := by
  obtain ⟨P, he⟩ := C75 hs hself hk hr ha
  exact ⟨P.down u, prices_down u P, equilibrium_down hu hc hone he⟩

/-- C124: when quantities are in whole units too, so is the least cost, whatever the solver -/
theorem C124_cost (hs : Ready s) (hself : NoSelfLink s) (h1 : OneStorage s) (hk : k < s.nbScn) (hr : solveLp solver b s = .ok r)
    (ha : Answers solver s k Cmd.Optimal) (hone : OneForOne s k) (hu : 0 < u) (hc : CostsIn u s k) (hq : QuantitiesIn v s k) :
    MultipleOf (u * v) (cost s k (dispatchOf s r k)) := by
  obtain ⟨P, hP, he⟩ := C124_prices hs hself hk hr ha hone hu hc
  rw [C81_equal hs (solved_feasible hs hself h1 hr hk (answers_feasible_of_optimal ha)) he]
  exact worth_multiple hc hq hone hP

/-- C124: when quantities are in whole units, whatever the costs, the flows of a result can all be rounded up or down to whole units such
that limits and balances still hold, at no cost -/
theorem C124_rounded (hs : Ready s) (hself : NoSelfLink s) (h1 : OneStorage s) (hk : k < s.nbScn)
    (hr : solveLp solver b s = .ok r) (ha : Answers solver s k Cmd.Optimal) (hone : OneForOne s k) (hv : 0 < v)
    (hq : QuantitiesIn v s k) :
    ∃ D, Rounded v s (dispatchOf s r k) D ∧ Spec.Feasible s k D ∧ cost s k D = cost s k (dispatchOf s r k) := by
  have hf := solved_feasible hs hself h1 hr hk (answers_feasible_of_optimal ha)
  obtain ⟨D, hD, hd, hc⟩ := exists_rounded hs hself h1 hv hq hone hf
  obtain ⟨P, he⟩ := C75 hs hself hk hr ha
  exact ⟨D, hd, hD, le_antisymm hc (C75_certificate hs hf he hD)⟩

/-- C124: any dispatch that is feasible can be rounded so, at a cost that is not higher -/
theorem C124_feasible (hs : Ready s) (hself : NoSelfLink s) (h1 : OneStorage s) (hone : OneForOne s k) (hv : 0 < v)
    (hq : QuantitiesIn v s k) {D : Dispatch} (hD : Spec.Feasible s k D) :
    ∃ D', Rounded v s D D' ∧ Spec.Feasible s k D' ∧ cost s k D' ≤ cost s k D := by
  obtain ⟨D', h2, h3, h4⟩ := exists_rounded hs hself h1 hv hq hone hD
  exact ⟨D', h3, h2, h4⟩

/-! ### Concrete cases -/

theorem multiple_one {q : ℚ} (h : q.den = 1) : MultipleOf 1 q := ⟨q.num, by rw [mul_one]; exact ((Rat.den_eq_one_iff q).1 h).symm⟩

theorem costsIn_of (h : ∀ p ∈ s.networks, ∀ q ∈ p.2.nodes, ∀ t < s.horizon,
      (∀ c ∈ q.2.consumptions, (val c.cost k t).den = 1) ∧ (∀ c ∈ q.2.productions, (val c.cost k t).den = 1) ∧
      (∀ c ∈ q.2.storages, (val c.cost k t).den = 1) ∧ (∀ c ∈ q.2.links, (val c.cost k t).den = 1))
    (h' : ∀ p ∈ s.converters, ∀ t < s.horizon, (fval p.2.cost k t).den = 1) : CostsIn 1 s k where
  consumptions := by rintro g d n ⟨net, hg, hd⟩ c hc t ht; exact multiple_one ((h _ hg _ hd t ht).1 c hc)
  productions := by rintro g d n ⟨net, hg, hd⟩ c hc t ht; exact multiple_one ((h _ hg _ hd t ht).2.1 c hc)
  storages := by rintro g d n ⟨net, hg, hd⟩ c hc t ht; exact multiple_one ((h _ hg _ hd t ht).2.2.1 c hc)
  links := by rintro g d n ⟨net, hg, hd⟩ c hc t ht; exact multiple_one ((h _ hg _ hd t ht).2.2.2 c hc)
  converters p hp t ht := multiple_one (h' p hp t ht)

theorem quantitiesIn_of (h : ∀ p ∈ s.networks, ∀ q ∈ p.2.nodes, (∀ c ∈ q.2.storages, c.initCapacity.den = 1) ∧ ∀ t < s.horizon,
      (∀ c ∈ q.2.consumptions, (val c.quantity k t).den = 1) ∧ (∀ c ∈ q.2.productions, (val c.quantity k t).den = 1) ∧
      (∀ c ∈ q.2.storages, (val c.capacity k t).den = 1 ∧ (val c.flowIn k t).den = 1 ∧ (val c.flowOut k t).den = 1) ∧
      (∀ c ∈ q.2.links, (val c.quantity k t).den = 1))
    (h' : ∀ p ∈ s.converters, ∀ t < s.horizon, (fval p.2.max k t).den = 1) : QuantitiesIn 1 s k where
  consumptions := by rintro g d n ⟨net, hg, hd⟩ c hc t ht; exact multiple_one (((h _ hg _ hd).2 t ht).1 c hc)
  productions := by rintro g d n ⟨net, hg, hd⟩ c hc t ht; exact multiple_one (((h _ hg _ hd).2 t ht).2.1 c hc)
  storages := by
    rintro g d n ⟨net, hg, hd⟩ c hc
    refine ⟨multiple_one ((h _ hg _ hd).1 c hc), fun t ht => ?_⟩
    obtain ⟨h1, h2, h3⟩ := ((h _ hg _ hd).2 t ht).2.2.1 c hc
    exact ⟨multiple_one h1, multiple_one h2, multiple_one h3⟩
  links := by rintro g d n ⟨net, hg, hd⟩ c hc t ht; exact multiple_one (((h _ hg _ hd).2 t ht).2.2.2 c hc)
  converters p hp t ht := multiple_one (h' p hp t ht)

theorem equilibrium_of {D : Dispatch} {P : Prices} (h : ∀ p ∈ s.networks, ∀ q ∈ p.2.nodes, ∀ t < s.horizon,
      (∀ c ∈ q.2.consumptions.zipIdx, Best (val c.1.cost k t - P.node p.1 q.1 t) (D.lol p.1 q.1 c.2 t) (val c.1.quantity k t)) ∧
      (∀ c ∈ q.2.productions.zipIdx, Best (val c.1.cost k t - P.node p.1 q.1 t) (D.prod p.1 q.1 c.2 t) (val c.1.quantity k t)) ∧
      (∀ c ∈ q.2.links.zipIdx, Best (val c.1.cost k t + P.node p.1 q.1 t - P.node p.1 c.1.dest t) (D.link p.1 q.1 c.2 t)
        (val c.1.quantity k t)) ∧
      (∀ c ∈ q.2.storages.zipIdx,
        Best (val c.1.cost k t + P.stored p.1 q.1 c.2 t - P.storedNext s.horizon p.1 q.1 c.2 t) (D.cap p.1 q.1 c.2 t)
          (val c.1.capacity k t) ∧
        Best (P.node p.1 q.1 t - val c.1.eff k t * P.stored p.1 q.1 c.2 t) (D.fin p.1 q.1 c.2 t) (val c.1.flowIn k t) ∧
        Best (P.stored p.1 q.1 c.2 t - P.node p.1 q.1 t) (D.fout p.1 q.1 c.2 t) (val c.1.flowOut k t)))
    (h' : ∀ p ∈ s.converters, ∀ t < s.horizon, (∀ q ∈ p.2.srcRatios,
        Best (P.node (srcPair q.1).1 (srcPair q.1).2 t - val q.2 k t * P.used p.1 (srcPair q.1) t) (D.convSrc p.1 (srcPair q.1) t)
          (fval p.2.max k t / val q.2 k t) ∧ val q.2 k t ≠ 0) ∧
      Best (fval p.2.cost k t + (sumL p.2.srcRatios fun q => P.used p.1 (srcPair q.1) t) - P.node p.2.destNetwork p.2.destNode t)
        (D.convDest p.1 t) (fval p.2.max k t)) : Equilibrium s k D P := by
  refine ⟨?_, ?_, ?_, ?_, ?_, ?_, ?_, ?_⟩
  · rintro g d n ⟨net, hg, hd⟩ i c hc t ht
    exact (h _ hg _ hd t ht).1 (c, i) (mem_zipIdx_iff.mpr hc)
  · rintro g d n ⟨net, hg, hd⟩ i c hc t ht
    exact (h _ hg _ hd t ht).2.1 (c, i) (mem_zipIdx_iff.mpr hc)
  · rintro g d n ⟨net, hg, hd⟩ i c hc t ht
    exact (h _ hg _ hd t ht).2.2.1 (c, i) (mem_zipIdx_iff.mpr hc)
  · rintro g d n ⟨net, hg, hd⟩ i c hc t ht
    exact ((h _ hg _ hd t ht).2.2.2 (c, i) (mem_zipIdx_iff.mpr hc)).1
  · rintro g d n ⟨net, hg, hd⟩ i c hc t ht
    exact ((h _ hg _ hd t ht).2.2.2 (c, i) (mem_zipIdx_iff.mpr hc)).2.1
  · rintro g d n ⟨net, hg, hd⟩ i c hc t ht
    exact ((h _ hg _ hd t ht).2.2.2 (c, i) (mem_zipIdx_iff.mpr hc)).2.2
  · intro p hp g d r hr t ht
    exact ⟨fun _ => ((h' p hp t ht).1 _ hr).1, fun h0 => absurd h0 ((h' p hp t ht).1 _ hr).2⟩
  · intro p hp t ht
    exact (h' p hp t ht).2

/-- two stations at the same cost, a tank that loses nothing, a converter that gives what it takes -/
def evenCalls : List Call :=
  [.studyNetwork "elec", .netNode 0 "a", .nodeConsumption 0 "load" (.num 100) (.array ⟨[2], [5, 9], rfl⟩),
   .nodeProduction 0 "coal" (.num 3) (.num 4), .nodeProduction 0 "oil" (.num 3) (.num 4),
   .nodeStorage 0 ⟨"tank", .num 4, .num 2, .num 2, .num 0, 0, .num 1⟩,
   .studyNetwork "gas", .netNode 1 "b", .nodeProduction 1 "well" (.num 0) (.num 1), .nodeToConverter 1 "box" (.num 1),
   .nodeConverter 1 "box" "elec" "a" (.num 3) (.num 1)]

def evenStudy : Study := made 2 1 evenCalls

theorem even_ready : Ready evenStudy where
  built := ⟨2, 1, _, rawCalls_of (by decide +kernel), rfl⟩
  complete := by unfold CompleteConverters; decide +kernel
  ratios := RatiosNonzero.usable (by unfold RatiosNonzero; decide +kernel)
  clean := cleanSources_of (by decide +kernel)

/-- an optimum in halves -/
def evenAnswer : Var → ℚ
  | .prod 0 "elec" "a" 0 => 3
  | .prod 1 "elec" "a" 0 => 4
  | .prod _ "elec" "a" 1 => 5 / 2
  | .prod _ "gas" "b" 0 => 1
  | .fin 0 "elec" "a" 0 => 3 / 2
  | .cap 0 "elec" "a" 0 => 3 / 2
  | .fout 1 "elec" "a" 0 => 3 / 2
  | .convSrc _ "box" _ => 1
  | .convDest _ "box" => 1
  | _ => 0

theorem even_noSelf : NoSelfLink evenStudy := noSelf_of (by decide +kernel)

theorem even_one : OneStorage evenStudy := oneStorage_of (by decide +kernel)

theorem even_optimal : Answers (fun _ => evenAnswer) evenStudy 0 Cmd.Optimal :=
  optimal_of_prices (P := ⟨fun g _ _ => if g = "gas" then 2 else 3, fun _ _ _ _ => 3, fun _ _ _ => 2⟩) even_ready even_noSelf even_one
    (by decide +kernel) (Cmd.feasible_of_check (by decide +kernel)) (equilibrium_of (by decide +kernel) (by decide +kernel))

def evenResult : Result := resultAll evenStudy (valsOf (fun _ => evenAnswer) evenStudy) ⟨[], [], 0, 0⟩

theorem even_solved : solveLp (fun _ => evenAnswer) ⟨[], [], 0, 0⟩ evenStudy = .ok evenResult := Ready.solve even_ready _ _

theorem even_costs : CostsIn 1 evenStudy 0 := costsIn_of (by decide +kernel) (by decide +kernel)

theorem even_quantities : QuantitiesIn 1 evenStudy 0 := quantitiesIn_of (by decide +kernel) (by decide +kernel)

theorem even_oneForOne : OneForOne evenStudy 0 where
  storages := by
    rintro g d n ⟨net, hg, hd⟩
    have : ∀ p ∈ evenStudy.networks, ∀ q ∈ p.2.nodes, ∀ c ∈ q.2.storages, ∀ t < evenStudy.horizon, val c.eff 0 t = 1 := by decide +kernel
    exact this _ hg _ hd
  converters := by
    have h : ∀ p ∈ evenStudy.converters, p.2.srcRatios = [(["gas", "b"], numOf 1)] := by decide +kernel
    have h' : ∀ t < evenStudy.horizon, val (numOf 1) 0 t = 1 := by decide +kernel
    exact fun p hp => ⟨_, h p hp, h'⟩

example := C124_prices even_ready even_noSelf (by decide +kernel) even_solved even_optimal even_oneForOne one_pos even_costs

/-- the least cost is 38: whole -/
example : MultipleOf (1 * 1) (cost evenStudy 0 (dispatchOf evenStudy evenResult 0)) :=
  C124_cost even_ready even_noSelf even_one (by decide +kernel) even_solved even_optimal even_oneForOne one_pos even_costs even_quantities

example : cost evenStudy 0 (dispatchOf evenStudy evenResult 0) = 38 := by decide +kernel

example := C124_rounded even_ready even_noSelf even_one (by decide +kernel) even_solved even_optimal even_oneForOne one_pos even_quantities

example := C124_feasible even_ready even_noSelf even_one even_oneForOne one_pos even_quantities
  (solved_feasible even_ready even_noSelf even_one even_solved (by decide +kernel) (answers_feasible_of_optimal even_optimal))

/-! ### Where energy is lost or multiplied -/

/-- a converter that makes two units of one -/
def twiceCalls : List Call :=
  [.studyNetwork "elec", .netNode 0 "a", .nodeConsumption 0 "load" (.num 100) (.num 1),
   .studyNetwork "gas", .netNode 1 "b", .nodeProduction 1 "well" (.num 1) (.num 1), .nodeToConverter 1 "box" (.num 2),
   .nodeConverter 1 "box" "elec" "a" (.num 3) (.num 0)]

def twiceStudy : Study := made 1 1 twiceCalls

theorem twice_ready : Ready twiceStudy where
  built := ⟨1, 1, _, rawCalls_of (by decide +kernel), rfl⟩
  complete := by unfold CompleteConverters; decide +kernel
  ratios := RatiosNonzero.usable (by unfold RatiosNonzero; decide +kernel)
  clean := cleanSources_of (by decide +kernel)

def twiceAnswer : Var → ℚ
  | .prod _ "gas" "b" 0 => 1 / 2
  | .convSrc _ "box" _ => 1 / 2
  | .convDest _ "box" => 1
  | _ => 0

theorem twice_optimal : Answers (fun _ => twiceAnswer) twiceStudy 0 Cmd.Optimal :=
  optimal_of_prices (P := ⟨fun g _ _ => if g = "gas" then 1 else 1 / 2, fun _ _ _ _ => 0, fun _ _ _ => 1 / 2⟩) twice_ready
    (noSelf_of (by decide +kernel)) (oneStorage_of (by decide +kernel)) (by decide +kernel) (Cmd.feasible_of_check (by decide +kernel))
    (equilibrium_of (by decide +kernel) (by decide +kernel))

/-- a tank that gives back two thirds, for a load at the second step and a station that runs at the first -/
def leakCalls : List Call :=
  [.studyNetwork "elec", .netNode 0 "a", .nodeConsumption 0 "load" (.num 100) (.array ⟨[2], [0, 1], rfl⟩),
   .nodeProduction 0 "sun" (.num 1) (.array ⟨[2], [4, 0], rfl⟩),
   .nodeStorage 0 ⟨"tank", .num 4, .num 2, .num 2, .num 0, 0, .num (2 / 3)⟩]

def leakStudy : Study := made 2 1 leakCalls

theorem leak_ready : Ready leakStudy where
  built := ⟨2, 1, _, rawCalls_of (by decide +kernel), rfl⟩
  complete := by unfold CompleteConverters; decide +kernel
  ratios := RatiosNonzero.usable (by unfold RatiosNonzero; decide +kernel)
  clean := cleanSources_of (by decide +kernel)

def leakAnswer : Var → ℚ
  | .prod 0 "elec" "a" 0 => 3 / 2
  | .fin 0 "elec" "a" 0 => 3 / 2
  | .cap 0 "elec" "a" 0 => 1
  | .fout 1 "elec" "a" 0 => 1
  | _ => 0

theorem leak_optimal : Answers (fun _ => leakAnswer) leakStudy 0 Cmd.Optimal :=
  optimal_of_prices (P := ⟨fun _ _ t => if t = 0 then 1 else 3 / 2, fun _ _ _ _ => 3 / 2, fun _ _ _ => 0⟩) leak_ready
    (noSelf_of (by decide +kernel)) (oneStorage_of (by decide +kernel)) (by decide +kernel) (Cmd.feasible_of_check (by decide +kernel))
    (equilibrium_of (by decide +kernel) (by decide +kernel))

theorem not_whole {q : ℚ} (h : q.den ≠ 1) : ¬ MultipleOf 1 q := by
  rintro ⟨z, rfl⟩
  rw [mul_one] at h
  exact h rfl

/-- C124: with a converter of ratio 2, or with a storage that loses, the least cost of a study in whole units may not be whole -/
theorem C124_losses_refuted :
    (CostsIn 1 twiceStudy 0 ∧ QuantitiesIn 1 twiceStudy 0 ∧ (∀ g d n, HasNode twiceStudy g d n → n.storages = []) ∧
      ∃ r, solveLp (fun _ => twiceAnswer) ⟨[], [], 0, 0⟩ twiceStudy = .ok r ∧ Answers (fun _ => twiceAnswer) twiceStudy 0 Cmd.Optimal ∧
        ¬ MultipleOf 1 (cost twiceStudy 0 (dispatchOf twiceStudy r 0))) ∧
    (CostsIn 1 leakStudy 0 ∧ QuantitiesIn 1 leakStudy 0 ∧ leakStudy.converters = [] ∧
      ∃ r, solveLp (fun _ => leakAnswer) ⟨[], [], 0, 0⟩ leakStudy = .ok r ∧ Answers (fun _ => leakAnswer) leakStudy 0 Cmd.Optimal ∧
        ¬ MultipleOf 1 (cost leakStudy 0 (dispatchOf leakStudy r 0))) := by
  refine ⟨⟨costsIn_of (by decide +kernel) (by decide +kernel), quantitiesIn_of (by decide +kernel) (by decide +kernel), ?_, _,
      Ready.solve twice_ready _ _, twice_optimal, not_whole (by decide +kernel)⟩,
    ⟨costsIn_of (by decide +kernel) (by decide +kernel), quantitiesIn_of (by decide +kernel) (by decide +kernel), by decide +kernel, _,
      Ready.solve leak_ready _ _, leak_optimal, not_whole (by decide +kernel)⟩⟩
  rintro g d n ⟨net, hg, hd⟩
  have : ∀ p ∈ twiceStudy.networks, ∀ q ∈ p.2.nodes, q.2.storages = [] := by decide +kernel
  exact this _ hg _ hd

end Hadar.Props
