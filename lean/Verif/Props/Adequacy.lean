import Verif.Proofs.Adequacy
import Verif.Props.Window
import Verif.Props.Optimum

/-!
# C91: bounds on what a study costs and on its loss of load
-/

namespace Hadar.Props

open Hadar Spec

variable {s : Study} {solver : Solver} {b : Benchmark} {r : Result} {k : ℕ}

/-- C91: with costs that are not negative a study does not cost less than zero -/
theorem C91_nonneg (hs : Ready s) (hk : k < s.nbScn) (hr : solveLp solver b s = .ok r) (ha : Answers solver s k Cmd.Feasible)
    (hc : CostsNonneg s k) : 0 ≤ cost s k (dispatchOf s r k) := by
  obtain rfl := Ready.result hs hr
  exact cost_nonneg hc ((codeFeasible_iff (Built.inv hs.built) hk _ b).mp (Ready.answer hs hk ha))

/-- C91: it never costs more than losing all loads and leaving storages as they are -/
theorem C91_idle (hs : Ready s) (hk : k < s.nbScn) (hr : solveLp solver b s = .ok r) (ha : Answers solver s k Cmd.Optimal)
    (hl : LimitsOk s k) : cost s k (dispatchOf s r k) ≤ overTime s (idleStep s k) := by
  obtain rfl := Ready.result hs hr
  have hi := Built.inv hs.built
  have ho := optimal_result hi hk _ b (Ready.answer hs hk ha)
  rw [← idle_cost hi]
  exact ho.2 _ (idle_code hi hl)

/-- C91: the loss of load costs no more than the study; where a unit lost costs at least `v`, no more than the cost of the study
divided by `v` is lost -/
theorem C91_loss (hs : Ready s) (hk : k < s.nbScn) (hr : solveLp solver b s = .ok r) (ha : Answers solver s k Cmd.Feasible)
    (hc : CostsNonneg s k) :
    overTime s (unservedCost s k (dispatchOf s r k)) ≤ cost s k (dispatchOf s r k) ∧
      ∀ v, LossCosts s k v → v * overTime s (unserved s (dispatchOf s r k)) ≤ cost s k (dispatchOf s r k) := by
  obtain rfl := Ready.result hs hr
  have hf := (codeFeasible_iff (Built.inv hs.built) hk _ b).mp (Ready.answer hs hk ha)
  have h1 : overTime s (unservedCost s k (dispatchOf s (resultAll s (valsOf solver s) b) k)) ≤
      cost s k (dispatchOf s (resultAll s (valsOf solver s) b) k) := by
    rw [cost_steps]
    exact sumL_le fun t ht => unservedCost_le hc hf (List.mem_range.mp ht)
  refine ⟨h1, fun v hv => le_trans ?_ h1⟩
  unfold overTime
  rw [← sumL_mul]
  exact sumL_le fun t ht => unserved_le_cost hv hf (List.mem_range.mp ht)

/-- C91: a study that costs nothing serves all its loads, where a unit lost costs something -/
theorem C91_adequate (hs : Ready s) (hk : k < s.nbScn) (hr : solveLp solver b s = .ok r) (ha : Answers solver s k Cmd.Feasible)
    (hc : CostsNonneg s k) {v : ℚ} (hv : LossCosts s k v) (hv0 : 0 < v) (h0 : cost s k (dispatchOf s r k) = 0) :
    ∀ g d n, HasNode s g d n → ∀ i c, n.consumptions[i]? = some c → ∀ t < s.horizon, (dispatchOf s r k).lol g d i t = 0 := by
  have hle := (C91_loss hs hk hr ha hc).2 v hv
  obtain rfl := Ready.result hs hr
  have hf := (codeFeasible_iff (Built.inv hs.built) hk _ b).mp (Ready.answer hs hk ha)
  rw [h0] at hle
  have htot : overTime s (unserved s (dispatchOf s (resultAll s (valsOf solver s) b) k)) = 0 := by
    apply le_antisymm
    · by_contra hh
      have := mul_pos hv0 (lt_of_not_ge hh)
      linarith
    · exact sumL_nonneg_of _ _ fun t ht => unserved_nonneg hf (List.mem_range.mp ht)
  rintro g d n ⟨net, hg, hd⟩ i c hi t ht
  have hnn := hf.bounds.consumptions g d n ⟨net, hg, hd⟩ i c hi t ht
  have key : ∀ {α : Type} {l : List α} {f : α → ℚ}, (∀ x ∈ l, 0 ≤ f x) → sumL l f = 0 → ∀ x ∈ l, f x = 0 := by
    intro α l f
    induction l with
    | nil => intro _ _ x hx; cases hx
    | cons a l ih =>
      intro hn h0 x hx
      have hc : sumL (a :: l) f = f a + sumL l f := by simp [sumL]
      have h1 := hn a (List.mem_cons_self ..)
      have h2 : 0 ≤ sumL l f := sumL_nonneg_of _ _ fun y hy => hn y (List.mem_cons_of_mem _ hy)
      rw [hc] at h0
      rcases List.mem_cons.mp hx with rfl | hx
      · linarith
      · exact ih (fun y hy => hn y (List.mem_cons_of_mem _ hy)) (by linarith) x hx
  have hlol : ∀ t < s.horizon, ∀ p ∈ s.networks, ∀ q ∈ p.2.nodes,
      0 ≤ sumI q.2.consumptions fun _ i => (dispatchOf s (resultAll s (valsOf solver s) b) k).lol p.1 q.1 i t := fun t ht p hp q hq =>
    sumI_nonneg_of _ _ fun i c hc => (hf.bounds.consumptions _ _ _ (⟨p.2, hp, hq⟩ : HasNode s p.1 q.1 q.2) i c hc t ht).1
  have h1 := key (fun t ht => unserved_nonneg hf (List.mem_range.mp ht)) htot t (List.mem_range.mpr ht)
  have h2 := key (fun p hp => sumL_nonneg_of _ _ fun q hq => hlol t ht p hp q hq) h1 _ hg
  have h3 := key (fun q hq => hlol t ht _ hg q hq) h2 _ hd
  exact key (l := n.consumptions.zipIdx)
    (fun p hp => (hf.bounds.consumptions g d n ⟨net, hg, hd⟩ p.2 p.1 (mem_zipIdx_iff.mp hp) t ht).1) h3 (c, i) (mem_zipIdx_iff.mpr hi)

/-! ### A concrete case -/

theorem whole_loss : LossCosts wholeStudy 0 100 := by
  have : ∀ p ∈ wholeStudy.networks, ∀ q ∈ p.2.nodes, ∀ c ∈ q.2.consumptions, ∀ t < wholeStudy.horizon, 100 ≤ val c.cost 0 t := by
    decide +kernel
  rintro g d n ⟨net, hg, hd⟩
  exact this _ hg _ hd

/-- `wholeStudy` costs 50, its loads lost would cost 500 -/
example : overTime wholeStudy (idleStep wholeStudy 0) = 500 ∧ cost wholeStudy 0 (dispatchOf wholeStudy wholeResult 0) = 50 := by
  decide +kernel

example : 100 * overTime wholeStudy (unserved wholeStudy (dispatchOf wholeStudy wholeResult 0)) ≤ 50 := by
  decide +kernel

example : 0 ≤ cost wholeStudy 0 (dispatchOf wholeStudy wholeResult 0) :=
  C91_nonneg whole_ready (by decide +kernel) (Ready.solve whole_ready _ _) (fun _ _ h => (wholeAnswer_optimal _ _ h).1) whole_costs

theorem whole_limits : LimitsOk wholeStudy 0 := by
  have h : ∀ p ∈ wholeStudy.networks, ∀ q ∈ p.2.nodes,
      (∀ c ∈ q.2.consumptions, ∀ t < wholeStudy.horizon, 0 ≤ val c.quantity 0 t) ∧
      (∀ c ∈ q.2.productions, ∀ t < wholeStudy.horizon, 0 ≤ val c.quantity 0 t) ∧
      (∀ c ∈ q.2.storages, ∀ t < wholeStudy.horizon,
        0 ≤ c.initCapacity ∧ c.initCapacity ≤ val c.capacity 0 t ∧ 0 ≤ val c.flowIn 0 t ∧ 0 ≤ val c.flowOut 0 t) ∧
      (∀ c ∈ q.2.links, ∀ t < wholeStudy.horizon, 0 ≤ val c.quantity 0 t) := by decide +kernel
  refine ⟨?_, ?_, ?_, ?_, by decide +kernel⟩
  · rintro g d n ⟨net, hg, hd⟩; exact (h _ hg _ hd).1
  · rintro g d n ⟨net, hg, hd⟩; exact (h _ hg _ hd).2.1
  · rintro g d n ⟨net, hg, hd⟩; exact (h _ hg _ hd).2.2.2
  · rintro g d n ⟨net, hg, hd⟩; exact (h _ hg _ hd).2.2.1

example : cost wholeStudy 0 (dispatchOf wholeStudy wholeResult 0) ≤ overTime wholeStudy (idleStep wholeStudy 0) :=
  C91_idle whole_ready (by decide +kernel) (Ready.solve whole_ready _ _) wholeAnswer_optimal whole_limits

/-- a load served for nothing by wind, next to a plant that stays still -/
def breezeStudy : Study := ((World.start 1 1).run [.studyNetwork "elec", .netNode 0 "a",
  .nodeConsumption 0 "load" (.num 100) (.num 3), .nodeProduction 0 "wind" (.num 0) (.num 5),
  .nodeProduction 0 "fuel" (.num 70) (.num 5)]).study

theorem breeze_ready : Ready breezeStudy where
  built := ⟨1, 1, _, rawCalls_of (by decide +kernel), rfl⟩
  complete := by unfold CompleteConverters; decide +kernel
  ratios := RatiosNonzero.usable (by unfold RatiosNonzero; decide +kernel)
  clean := cleanSources_of (by decide +kernel)

def breezeAnswer : Var → ℚ
  | .prod _ _ _ 0 => 3
  | _ => 0

theorem breezeAnswer_feasible : Answers (fun _ => breezeAnswer) breezeStudy 0 Cmd.Feasible := by
  intro steps log h
  obtain rfl := logOf_eq h
  exact Cmd.feasible_of_check (by decide +kernel)

theorem breeze_loss : LossCosts breezeStudy 0 100 := by
  have : ∀ p ∈ breezeStudy.networks, ∀ q ∈ p.2.nodes, ∀ c ∈ q.2.consumptions, ∀ t < breezeStudy.horizon, 100 ≤ val c.cost 0 t := by
    decide +kernel
  rintro g d n ⟨net, hg, hd⟩
  exact this _ hg _ hd

theorem breeze_costs : CostsNonneg breezeStudy 0 := by
  have h : ∀ p ∈ breezeStudy.networks, ∀ q ∈ p.2.nodes,
      (∀ c ∈ q.2.consumptions, ∀ t < breezeStudy.horizon, 0 ≤ val c.cost 0 t) ∧
      (∀ c ∈ q.2.productions, ∀ t < breezeStudy.horizon, 0 ≤ val c.cost 0 t) ∧
      (∀ c ∈ q.2.storages, ∀ t < breezeStudy.horizon, 0 ≤ val c.cost 0 t) ∧
      (∀ c ∈ q.2.links, ∀ t < breezeStudy.horizon, 0 ≤ val c.cost 0 t) := by decide +kernel
  refine ⟨?_, ?_, ?_, ?_, by decide +kernel⟩
  · rintro g d n ⟨net, hg, hd⟩; exact (h _ hg _ hd).1
  · rintro g d n ⟨net, hg, hd⟩; exact (h _ hg _ hd).2.1
  · rintro g d n ⟨net, hg, hd⟩; exact (h _ hg _ hd).2.2.1
  · rintro g d n ⟨net, hg, hd⟩; exact (h _ hg _ hd).2.2.2

example : ∀ g d n, HasNode breezeStudy g d n → ∀ i c, n.consumptions[i]? = some c → ∀ t < breezeStudy.horizon,
    (dispatchOf breezeStudy (resultAll breezeStudy (valsOf (fun _ => breezeAnswer) breezeStudy) ⟨[], [], 0, 0⟩) 0).lol g d i t = 0 :=
  C91_adequate breeze_ready (by decide +kernel) (Ready.solve breeze_ready _ _) breezeAnswer_feasible breeze_costs breeze_loss (by norm_num)
    (by decide +kernel)

/-! ### The theorems applied to concrete cases -/

example := C91_loss whole_ready (k := 0) (by decide +kernel) (Ready.solve whole_ready (fun _ => wholeAnswer) ⟨[], [], 0, 0⟩)
  (fun _ _ h => (wholeAnswer_optimal _ _ h).1) whole_costs

end Hadar.Props
