import Verif.Proofs.Worth
import Verif.Props.Energy
import Verif.Props.Sensitivity

/-!
# C81: prices explain the cost, and say what more load costs
-/

namespace Hadar.Props

open Spec

variable {s s' : Study} {k k' : ℕ} {solver solver' : Solver} {b b' : Benchmark} {r r' : Result} {P : Prices}

/-- C81: whatever the prices, not negative where a converter takes energy to no use, a study costs at least what it is worth -/
theorem C81_lower {D : Dispatch} (hs : Ready s) (hz : DrainsPriced s k P) (hD : Spec.Feasible s k D) :
    worth s k P ≤ cost s k D :=
  worth_le_cost (Built.inv hs.built) (Ready.dest hs) hz hD

/-- C81: a dispatch with prices costs what the study is worth at these prices -/
theorem C81_equal {D : Dispatch} (hs : Ready s) (hD : Spec.Feasible s k D) (he : Equilibrium s k D P) :
    cost s k D = worth s k P :=
  worth_eq_cost (Built.inv hs.built) (Ready.dest hs) hD he

/-- C81, without link from a node to itself and with at most one storage per node: the result of `solve_lp` comes with prices at which it
costs what the study is worth. -/
theorem C81_worth (hs : Ready s) (hself : NoSelfLink s) (h1 : OneStorage s) (hk : k < s.nbScn)
    (hr : solveLp solver b s = .ok r) (ha : Answers solver s k Cmd.Optimal) :
    ∃ P, Equilibrium s k (dispatchOf s r k) P ∧ cost s k (dispatchOf s r k) = worth s k P := by
  obtain ⟨P, he⟩ := C75 hs hself hk hr ha
  exact ⟨P, he, C81_equal hs (solved_feasible hs hself h1 hr hk (answers_feasible_of_optimal ha)) he⟩

/-- C81: these prices tell what it costs to serve other loads: it costs at least the price for each unit more (or the cost of cutting it,
if less), and saves at most that for each unit less. -/
theorem C81_loads (hs : Ready s) (hself : NoSelfLink s) (h1 : OneStorage s) (hk : k < s.nbScn)
    (hr : solveLp solver b s = .ok r) (ha : Answers solver s k Cmd.Optimal) :
    ∃ P, Equilibrium s k (dispatchOf s r k) P ∧
      ∀ s' k' solver' b' r', Ready s' → NoSelfLink s' → OneStorage s' → OtherLoads s k s' k' → k' < s'.nbScn →
        solveLp solver' b' s' = .ok r' → Answers solver' s' k' Cmd.Optimal →
        cost s k (dispatchOf s r k) + (loadWorth s' k' P - loadWorth s k P) ≤ cost s' k' (dispatchOf s' r' k') := by
  obtain ⟨P, he, hw⟩ := C81_worth hs hself h1 hk hr ha
  refine ⟨P, he, fun s' k' solver' b' r' hs' hself' h1' ho hk' hr' ha' => ?_⟩
  have h2 := C81_lower (P := P) hs' (drains_otherLoads ho he.drains) (solved_feasible hs' hself' h1' hr' hk' (answers_feasible_of_optimal ha'))
  have h3 := worth_otherLoads (P := P) ho
  linarith

/-! ### A concrete case -/

/-- the prices of `priceStudy` explain its cost -/
example : worth priceStudy 0 somePrices = cost priceStudy 0 (dispatchOf priceStudy priceResult 0) := by decide +kernel

example : cost priceStudy 0 (dispatchOf priceStudy priceResult 0) = 244 := by decide +kernel

/-- `priceStudy` with other loads -/
def morePriceCalls : List Call :=
  [.studyNetwork "elec", .netNode 0 "a", .nodeConsumption 0 "load" (.num 100) (.num 3),
   .nodeProduction 0 "nuke" (.num 20) (.num 15),
   .nodeStorage 0 ⟨"cell", .num 8, .num 2, .num 2, .num 1, 0, .num (1/2)⟩,
   .netNode 0 "b", .nodeConsumption 0 "load" (.num 100) (.num 5), .nodeProduction 0 "fuel" (.num 15) (.num 4),
   .netLink 0 "a" "b" (.num 1) (.num 4),
   .studyNetwork "gas", .netNode 1 "g", .nodeProduction 1 "well" (.num 12) (.num 10),
   .nodeToConverter 1 "conv" (.num (1/2)),
   .nodeConverter 1 "conv" "elec" "b" (.num 3) (.num 2)]

def morePriceStudy : Study := ((World.start 2 1).run morePriceCalls).study

instance (s s' : Study) (k k' : ℕ) : Decidable (OtherLoads s k s' k') :=
  decidable_of_iff (s.horizon = s'.horizon ∧ _ ∧ _) ⟨fun h => ⟨h.1, h.2.1, h.2.2⟩, fun h => ⟨h.1, h.2, h.3⟩⟩

theorem morePrice_other : OtherLoads priceStudy 0 morePriceStudy 0 := by decide +kernel

/-- two units more at `a` for 20 each and one unit less at `b` for 21, at two time steps -/
example : loadWorth morePriceStudy 0 somePrices - loadWorth priceStudy 0 somePrices = 2 * (2 * 20 - 21) := by decide +kernel

/-! ### The theorems applied to concrete cases -/

example := C81_lower priceStudy_ready (P := somePrices) (by
  intro p hp g d r hq t ht h0
  have : ∀ p ∈ priceStudy.converters, ∀ q ∈ p.2.srcRatios, ∀ t < priceStudy.horizon, val q.2 0 t ≠ 0 := by decide +kernel
  exact absurd h0 (this p hp _ hq t ht)) priceAnswer_feasible

example := C81_equal priceStudy_ready priceAnswer_feasible somePrices_equilibrium

example := C81_worth priceStudy_ready priceStudy_noSelf priceStudy_one (by decide +kernel) priceStudy_solved priceAnswer_optimal

end Hadar.Props
