import Verif.Proofs.Demand
import Verif.Props.Whole
import Verif.Props.Worth
import Verif.Props.Route
import Verif.Props.Coarse

/-!
# C133: asking for more never costs less
-/

namespace Hadar.Props

open Hadar Spec

variable {s s' : Study} {solver solver' : Solver} {b b' : Benchmark} {r r' : Result} {k k' : ℕ} {P : Prices}

/-- C81: the prices at which a dispatch costs what the study is worth are those at which nobody would rather do something else -/
theorem C81_iff {D : Dispatch} (hs : Ready s) (hz : DrainsPriced s k P) (hD : Spec.Feasible s k D) :
    cost s k D = worth s k P ↔ Equilibrium s k D P :=
  ⟨fun h => equilibrium_of_worth (Built.inv hs.built) (Ready.dest hs) hz hD h.le, fun h => C81_equal hs hD h⟩

/-- C133: the optimal result comes with prices none of which is negative -/
theorem C133_prices (hs : Ready s) (hself : NoSelfLink s) (h1 : OneStorage s) (hk : k < s.nbScn) (hc : CostsNonneg s k)
    (hp : RatiosNonneg s k) (hst : StoragesAtRest s k) (hr : solveLp solver b s = .ok r) (ha : Answers solver s k Cmd.Optimal) :
    ∃ P, P.Nonneg ∧ Equilibrium s k (dispatchOf s r k) P := by
  obtain ⟨P, he, hw⟩ := C81_worth hs hself h1 hk hr ha
  have hD := solved_feasible hs hself h1 hr hk (answers_feasible_of_optimal ha)
  have hle := worth_pos (P := P) hc hp hst hD.bounds
  exact ⟨P.pos, P.pos_nonneg, equilibrium_of_worth (Built.inv hs.built) (Ready.dest hs)
    (fun p _ g d _ _ t _ _ => P.pos_nonneg.node g d t) hD (hw.le.trans hle)⟩

theorem moreLoads_noSelf (h : MoreLoads s k s' k') (hself : NoSelfLink s) : NoSelfLink s' := by
  intro g d n' hn' l' hl'
  obtain ⟨n, hn, hN⟩ := Alike.node h hn'
  obtain ⟨l, hl, e, -⟩ := forall₂_mem_right hN.2.links hl'
  rw [← e]
  exact hself g d n hn l hl

theorem moreLoads_one (h : MoreLoads s k s' k') (h1 : OneStorage s) : OneStorage s' := by
  intro g d n' hn'
  obtain ⟨n, hn, hN⟩ := Alike.node h hn'
  rw [← hN.2.storages.length_eq]
  exact h1 g d n hn

/-- C133: when consumptions ask for more, no result costs less than the least cost of before -/
theorem C133 (h : MoreLoads s k s' k') (hs : Ready s) (hs' : Ready s') (hself : NoSelfLink s) (h1 : OneStorage s)
    (hk : k < s.nbScn) (hk' : k' < s'.nbScn) (hc : CostsNonneg s k) (hp : RatiosNonneg s k) (hst : StoragesAtRest s k)
    (hr : solveLp solver b s = .ok r) (hr' : solveLp solver' b' s' = .ok r') (ha : Answers solver s k Cmd.Optimal)
    (ha' : Answers solver' s' k' Cmd.Feasible) : cost s k (dispatchOf s r k) ≤ cost s' k' (dispatchOf s' r' k') := by
  obtain ⟨P, hP, he⟩ := C133_prices hs hself h1 hk hc hp hst hr ha
  have hD := solved_feasible hs hself h1 hr hk (answers_feasible_of_optimal ha)
  have hD' := solved_feasible hs' (moreLoads_noSelf h hself) (moreLoads_one h h1) hr' hk' ha'
  have e1 := C81_equal hs hD he
  have e2 := worth_otherLoads (P := P) h.other
  have e3 := loadWorth_more h hP hc
  have e4 := C81_lower (P := P) hs' (fun p _ g d _ _ t _ _ => hP.node g d t) hD'
  linarith

/-- C133: nor does the least cost rise by more than what it costs to lose all that is asked in addition -/
theorem C133_upper (h : MoreLoads s k s' k') (hs : Ready s) (hs' : Ready s') (hk : k < s.nbScn) (hk' : k' < s'.nbScn)
    (hr : solveLp solver b s = .ok r) (hr' : solveLp solver' b' s' = .ok r') (ha : Answers solver s k Cmd.Feasible)
    (ha' : Answers solver' s' k' Cmd.Optimal) :
    cost s' k' (dispatchOf s' r' k') ≤ cost s k (dispatchOf s r k) + (askedCost s' k' - askedCost s k) := by
  obtain rfl := Ready.result hs hr
  obtain rfl := Ready.result hs' hr'
  have hi := Built.inv hs.built
  have hi' := Built.inv hs'.built
  have hf := (codeFeasible_iff hi hk _ b).mp (Ready.answer hs hk ha)
  have ho := optimal_result hi' hk' _ b' (Ready.answer hs' hk' ha')
  rw [← losing_cost h hi hi']
  exact ho.2 _ (losing_code h hi hi' hf)

/-! ### A concrete case -/

instance (s s' : Study) (k k' : ℕ) : Decidable (MoreLoads s k s' k') :=
  decidable_of_iff (s.horizon = s'.horizon ∧ _ ∧ _) ⟨fun h => ⟨h.1, h.2.1, h.2.2⟩, fun h => ⟨h.1, h.2, h.3⟩⟩

/-- `priceStudy` where both nodes ask for more -/
def hungryCalls : List Call :=
  [.studyNetwork "elec", .netNode 0 "a", .nodeConsumption 0 "load" (.num 100) (.array ⟨[2], [3, 1], rfl⟩),
   .nodeProduction 0 "nuke" (.num 20) (.num 15),
   .nodeStorage 0 ⟨"cell", .num 8, .num 2, .num 2, .num 1, 0, .num (1/2)⟩,
   .netNode 0 "b", .nodeConsumption 0 "load" (.num 100) (.array ⟨[2], [6, 13], rfl⟩), .nodeProduction 0 "fuel" (.num 15) (.num 4),
   .netLink 0 "a" "b" (.num 1) (.num 4),
   .studyNetwork "gas", .netNode 1 "g", .nodeProduction 1 "well" (.num 12) (.num 10),
   .nodeToConverter 1 "conv" (.num (1/2)),
   .nodeConverter 1 "conv" "elec" "b" (.num 3) (.num 2)]

def hungryStudy : Study := made 2 1 hungryCalls

theorem hungry_ready : Ready hungryStudy where
  built := ⟨2, 1, _, rawCalls_of (by decide +kernel), rfl⟩
  complete := by unfold CompleteConverters; decide +kernel
  ratios := RatiosNonzero.usable (by unfold RatiosNonzero; decide +kernel)
  clean := cleanSources_of (by decide +kernel)

theorem hungry_more : MoreLoads priceStudy 0 hungryStudy 0 := by decide +kernel

/-- all ways are used at the second time step, and 2 are lost -/
def hungryAnswer : Var → ℚ
  | .prod 0 "elec" "a" 0 => 5
  | .prod 1 "elec" "a" 0 => 5
  | .prod _ "elec" "b" 0 => 4
  | .link 0 "elec" "a" 0 => 2
  | .link 1 "elec" "a" 0 => 4
  | .prod 1 "gas" "g" 0 => 6
  | .convSrc 1 _ _ => 6
  | .convDest 1 _ => 3
  | .lol 1 "elec" "b" 0 => 2
  | _ => 0

theorem hungryAnswer_feasible : Answers (fun _ => hungryAnswer) hungryStudy 0 Cmd.Feasible := feasibleAnswer_of (by decide +kernel)

theorem hungry_solved : solveLp (fun _ => hungryAnswer) ⟨[], [], 0, 0⟩ hungryStudy =
    .ok (resultAll hungryStudy (valsOf (fun _ => hungryAnswer) hungryStudy) ⟨[], [], 0, 0⟩) :=
  Ready.solve hungry_ready (fun _ => hungryAnswer) _

theorem costs_check : ∀ p ∈ priceStudy.networks, ∀ q ∈ p.2.nodes, ∀ t < priceStudy.horizon,
    (∀ c ∈ q.2.consumptions, 0 ≤ val c.cost 0 t) ∧ (∀ c ∈ q.2.productions, 0 ≤ val c.cost 0 t) ∧
    (∀ c ∈ q.2.storages, 0 ≤ val c.cost 0 t) ∧ ∀ c ∈ q.2.links, 0 ≤ val c.cost 0 t := by decide +kernel

theorem price_costs : CostsNonneg priceStudy 0 where
  consumptions := by rintro g d n ⟨net, hg, hd⟩ c hc t ht; exact (costs_check _ hg _ hd t ht).1 c hc
  productions := by rintro g d n ⟨net, hg, hd⟩ c hc t ht; exact (costs_check _ hg _ hd t ht).2.1 c hc
  storages := by rintro g d n ⟨net, hg, hd⟩ c hc t ht; exact (costs_check _ hg _ hd t ht).2.2.1 c hc
  links := by rintro g d n ⟨net, hg, hd⟩ c hc t ht; exact (costs_check _ hg _ hd t ht).2.2.2 c hc
  converters := by decide +kernel

theorem price_ratios : RatiosNonneg priceStudy 0 := by unfold RatiosNonneg; decide +kernel

theorem atRest_of (h : ∀ p ∈ s.networks, ∀ q ∈ p.2.nodes, ∀ c ∈ q.2.storages, (∀ t < s.horizon, 0 ≤ val c.eff k t) ∧
    (c.initCapacity = 0 ∨ 0 ≤ c.initCapacity ∧ ∀ t < s.horizon, val c.cost k t = 0 ∧ c.initCapacity ≤ val c.capacity k t)) :
    StoragesAtRest s k := by
  rintro g d n ⟨net, hg, hd⟩ c hc
  exact h _ hg _ hd c hc

theorem price_rest : StoragesAtRest priceStudy 0 := atRest_of (by decide +kernel)

/-- storages that hold energy at first can be at rest as well -/
example : StoragesAtRest fineStudy 0 := atRest_of (by decide +kernel)

/-- the hypotheses are met: the result of `priceStudy` costs no more than this one, that is 244 and 604 -/
example : cost priceStudy 0 (dispatchOf priceStudy priceResult 0) ≤ cost hungryStudy 0
    (dispatchOf hungryStudy (resultAll hungryStudy (valsOf (fun _ => hungryAnswer) hungryStudy) ⟨[], [], 0, 0⟩) 0) :=
  C133 hungry_more priceStudy_ready hungry_ready priceStudy_noSelf priceStudy_one (by decide +kernel) (by decide +kernel)
    price_costs price_ratios price_rest priceStudy_solved hungry_solved priceAnswer_optimal hungryAnswer_feasible

example (solver' : Solver) (r' : Result) (hr' : solveLp solver' ⟨[], [], 0, 0⟩ hungryStudy = .ok r')
    (ha' : Answers solver' hungryStudy 0 Cmd.Optimal) :
    cost hungryStudy 0 (dispatchOf hungryStudy r' 0) ≤
      cost priceStudy 0 (dispatchOf priceStudy priceResult 0) + (askedCost hungryStudy 0 - askedCost priceStudy 0) :=
  C133_upper hungry_more priceStudy_ready hungry_ready (by decide +kernel) (by decide +kernel) priceStudy_solved hr'
    (answers_feasible_of_optimal priceAnswer_optimal) ha'

example : cost hungryStudy 0 (ofVars hungryAnswer) = 604 := by decide +kernel

/-- two units more at `a` and seven at `b`, to be lost for 100 each at most -/
example : askedCost hungryStudy 0 - askedCost priceStudy 0 = 900 := by decide +kernel

example := C133_prices priceStudy_ready priceStudy_noSelf priceStudy_one (by decide +kernel) price_costs price_ratios price_rest
  priceStudy_solved priceAnswer_optimal

example := (C81_iff (P := somePrices) priceStudy_ready somePrices_equilibrium.drains priceAnswer_feasible).mpr somePrices_equilibrium

/-! ### Storages that must be emptied -/

/-- a tank that is dear to keep full, and a consumption -/
def holdCalls (q : ℚ) : List Call :=
  [.studyNetwork "elec", .netNode 0 "a", .nodeConsumption 0 "load" (.num 1) (.num q),
   .nodeStorage 0 ⟨"tank", .num 1, .num 0, .num 1, .num 10, 1, .num 1⟩]

def fullTank : Study := made 1 1 (holdCalls 0)
def usedTank : Study := made 1 1 (holdCalls 1)

theorem fullTank_ready : Ready fullTank where
  built := ⟨1, 1, _, rawCalls_of (by decide +kernel), rfl⟩
  complete := by unfold CompleteConverters; decide +kernel
  ratios := RatiosNonzero.usable (by unfold RatiosNonzero; decide +kernel)
  clean := cleanSources_of (by decide +kernel)

theorem usedTank_ready : Ready usedTank where
  built := ⟨1, 1, _, rawCalls_of (by decide +kernel), rfl⟩
  complete := by unfold CompleteConverters; decide +kernel
  ratios := RatiosNonzero.usable (by unfold RatiosNonzero; decide +kernel)
  clean := cleanSources_of (by decide +kernel)

def fullAnswer : Var → ℚ
  | .cap _ _ _ _ => 1
  | _ => 0

def usedAnswer : Var → ℚ
  | .fout _ _ _ _ => 1
  | _ => 0

theorem fullAnswer_optimal : Answers (fun _ => fullAnswer) fullTank 0 Cmd.Optimal :=
  optimal_of_prices (P := ⟨fun _ _ _ => -10, fun _ _ _ _ => -10, fun _ _ _ => 0⟩) fullTank_ready (noSelf_of (by decide +kernel))
    (oneStorage_of (by decide +kernel)) (by decide +kernel) (Cmd.feasible_of_check (by decide +kernel))
    (equilibrium_of (by decide +kernel) (by decide +kernel))

theorem usedAnswer_optimal : Answers (fun _ => usedAnswer) usedTank 0 Cmd.Optimal :=
  optimal_of_prices (P := ⟨fun _ _ _ => 0, fun _ _ _ _ => 0, fun _ _ _ => 0⟩) usedTank_ready (noSelf_of (by decide +kernel))
    (oneStorage_of (by decide +kernel)) (by decide +kernel) (Cmd.feasible_of_check (by decide +kernel))
    (equilibrium_of (by decide +kernel) (by decide +kernel))

/-- C133: `StoragesAtRest` is needed. With a storage that is dear to keep full, asking for more can cost less: 0 in place of 10 -/
theorem C133_storage : ∃ s s' solver solver' r r', MoreLoads s 0 s' 0 ∧ Ready s ∧ Ready s' ∧ solveLp solver ⟨[], [], 0, 0⟩ s = .ok r ∧
    solveLp solver' ⟨[], [], 0, 0⟩ s' = .ok r' ∧ Answers solver s 0 Cmd.Optimal ∧ Answers solver' s' 0 Cmd.Optimal ∧
    cost s' 0 (dispatchOf s' r' 0) = 0 ∧ cost s 0 (dispatchOf s r 0) = 10 :=
  ⟨fullTank, usedTank, fun _ => fullAnswer, fun _ => usedAnswer, _, _, by decide +kernel, fullTank_ready, usedTank_ready,
    Ready.solve fullTank_ready (fun _ => fullAnswer) _, Ready.solve usedTank_ready (fun _ => usedAnswer) _,
    fullAnswer_optimal, usedAnswer_optimal, by decide +kernel, by decide +kernel⟩

end Hadar.Props
