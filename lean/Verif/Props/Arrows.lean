import Verif.Proofs.Arrows
import Verif.Props.Energy

/-!
# C144: arrows of exchange maps add up to balances
-/

namespace Hadar.Props

open Hadar Hadar.Spec

variable {junk : Junk} {s : Study} {r : Result} {a : Analyzer} {solver : Solver} {b : Benchmark}

/-- C144: for every group of nodes, arrows that leave it less arrows that reach it are the sum of the values drawn at its nodes -/
theorem C144 (hb : Built s) (hm : Mirrors s r) (ha : Analyzer.init junk s r = .ok a) {g : String}
    {net : InputNetwork} (hg : (g, net) ∈ s.networks) (h0 : net.nodes ≠ []) {coord : Dict String (ℚ × ℚ)}
    (hco : ∀ p ∈ net.nodes, ∃ q, Dict.get? coord p.1 = some q) {k t : ℕ} (hk : k < s.nbScn) (ht : t < s.horizon)
    (limit : Option ℚ) :
    ∃ chart, Viewer.map a (some coord) g (t : ℤ) (k : ℤ) limit = .ok chart ∧
      ∀ group, leaving group chart.arrows - reaching group chart.arrows = valuesOf group chart.nodes := by
  have hi := Built.inv hb
  obtain ⟨chart, h1, h2, h3, _⟩ := C61 hb hm ha hg h0 hco hk ht limit
  refine ⟨chart, h1, fun group => ?_⟩
  have hl : ∀ x y, Linked s g x y → x ∈ net.nodes.map Prod.fst ∧ y ∈ net.nodes.map Prod.fst := by
    rintro x y ⟨n, ⟨net', hg', hx⟩, hy⟩
    obtain rfl : net' = net := by
      have e1 := hi.get?_network hg
      rw [hi.get?_network hg'] at e1
      exact Option.some.inj e1
    obtain ⟨l, hl, rfl⟩ := List.mem_map.mp hy
    exact ⟨List.mem_map.mpr ⟨_, hx, rfl⟩, hi.links g net' hg x n hx l hl⟩
  have key := arrows_sum h3 (hi.names.nodes (g, net) hg) hl (fun x y hxy => flowBetween_none hb hxy k t)
    fun c c' => (if c ∈ group.map Cell.str then 1 else 0) - if c' ∈ group.map Cell.str then 1 else 0
  have e1 : leaving group chart.arrows - reaching group chart.arrows = sumL chart.arrows fun p =>
      ((if p.1.1 ∈ group.map Cell.str then 1 else 0) - if p.1.2 ∈ group.map Cell.str then 1 else 0) * p.2 := by
    unfold leaving reaching
    rw [← sumL_sub]
    refine sumL_congr fun p _ => ?_
    by_cases c1 : p.1.1 ∈ group.map Cell.str <;> by_cases c2 : p.1.2 ∈ group.map Cell.str <;> simp [c1, c2]
  rw [e1, key]
  have hstr : ∀ x, (Cell.str x ∈ group.map Cell.str) = (x ∈ group) := by
    intro x
    simp
  simp only [hstr, sub_mul, sumL_sub]
  rw [sumL_swap (net.nodes.map Prod.fst) (net.nodes.map Prod.fst)
    fun x y => (if y ∈ group then (1 : ℚ) else 0) * max 0 (flowBetween s r k g x y t - flowBetween s r k g y x t), ← sumL_sub, h2]
  unfold valuesOf
  rw [sumL_map, sumL_map]
  refine sumL_congr fun q hq => ?_
  rw [← sumL_sub]
  by_cases hq' : q.1 ∈ group
  · simp only [hq', if_true, one_mul]
    rw [← balance_flows hb hg hq k t]
    refine sumL_congr fun y _ => ?_
    rcases le_total (flowBetween s r k g q.1 y t) (flowBetween s r k g y q.1 t) with h | h
    · rw [max_eq_left (by linarith), max_eq_right (by linarith)]; ring
    · rw [max_eq_right (by linarith), max_eq_left (by linarith)]; ring
  · simp only [hq', if_false, zero_mul, sub_self]
    exact sumL_zero _

/-- C144: when the solver gives a feasible dispatch, arrows that leave a group of nodes less arrows that reach it are what its nodes have
left after their own consumptions, storages and converters, together with what `solve_lp` counts twice at nodes linked to themselves -/
theorem C144_surplus (hs : Ready s) (hr : solveLp solver b s = .ok r)
    (ha : Analyzer.init junk s r = .ok a) {g : String} {net : InputNetwork} (hg : (g, net) ∈ s.networks) (h0 : net.nodes ≠ [])
    {coord : Dict String (ℚ × ℚ)} (hco : ∀ p ∈ net.nodes, ∃ q, Dict.get? coord p.1 = some q) {k t : ℕ} (hk : k < s.nbScn)
    (ht : t < s.horizon) (hans : Answers solver s k Cmd.Feasible) (limit : Option ℚ) :
    ∃ chart, Viewer.map a (some coord) g (t : ℤ) (k : ℤ) limit = .ok chart ∧
      ∀ group, leaving group chart.arrows - reaching group chart.arrows =
        sumL net.nodes fun q => if q.1 ∈ group then
          ownSurplus s k (dispatchOf s r k) g q.1 q.2 t + selfFlow (dispatchOf s r k) g q.1 q.2 t else 0 := by
  have hm : Mirrors s r := by
    obtain rfl := Ready.result hs hr
    exact mirrors_result (Built.inv hs.built) _ _
  obtain ⟨chart, e1, e2⟩ := C144 hs.built hm ha hg h0 hco hk ht limit
  obtain ⟨chart', e1', e3, _⟩ := C61 hs.built hm ha hg h0 hco hk ht limit
  obtain rfl : chart = chart' := by rw [e1] at e1'; exact Except.ok.inj e1'
  refine ⟨chart, e1, fun group => ?_⟩
  rw [e2 group, e3]
  unfold valuesOf
  rw [sumL_map]
  refine sumL_congr fun q hq => ?_
  have hcode : CodeFeasible s k (dispatchOf s r k) := by
    obtain rfl := Ready.result hs hr
    exact (codeFeasible_iff (Built.inv hs.built) hk _ b).mp (Ready.answer hs hk hans)
  have hbal := hcode.balance g q.1 q.2 ⟨net, hg, hq⟩ t ht
  by_cases hq' : q.1 ∈ group
  · simp only [hq', if_true]
    unfold incoming outgoing at hbal
    unfold balanceOf ownSurplus
    linarith
  · simp only [hq', if_false]

/-- C144 (partial): without links from nodes to themselves, arrows that leave a group of nodes less arrows that reach it are what its nodes
have left after their own consumptions, storages and converters. Missing: links from a node to itself, see `C144_surplus_refuted`. -/
theorem C144_surplus_partial (hs : Ready s) (hself : NoSelfLink s) (hr : solveLp solver b s = .ok r)
    (ha : Analyzer.init junk s r = .ok a) {g : String} {net : InputNetwork} (hg : (g, net) ∈ s.networks) (h0 : net.nodes ≠ [])
    {coord : Dict String (ℚ × ℚ)} (hco : ∀ p ∈ net.nodes, ∃ q, Dict.get? coord p.1 = some q) {k t : ℕ} (hk : k < s.nbScn)
    (ht : t < s.horizon) (hans : Answers solver s k Cmd.Feasible) (limit : Option ℚ) :
    ∃ chart, Viewer.map a (some coord) g (t : ℤ) (k : ℤ) limit = .ok chart ∧
      ∀ group, leaving group chart.arrows - reaching group chart.arrows =
        sumL net.nodes fun q => if q.1 ∈ group then ownSurplus s k (dispatchOf s r k) g q.1 q.2 t else 0 := by
  obtain ⟨chart, h1, h2⟩ := C144_surplus hs hr ha hg h0 hco hk ht hans limit
  refine ⟨chart, h1, fun group => (h2 group).trans (sumL_congr fun q hq => ?_)⟩
  have : selfFlow (dispatchOf s r k) g q.1 q.2 t = 0 := by
    unfold selfFlow
    rw [sumI_eq]
    refine sumL_eq_zero fun l hl => ?_
    rw [if_neg (hself g q.1 q.2 ⟨net, hg, hq⟩ l.1 (List.fst_mem_of_mem_zipIdx hl))]
  rw [this, add_zero]

/-- a network of a study -/
def netOf (s : Study) (g : String) : InputNetwork := (s.networks.get? g).getD ⟨[]⟩

theorem netOf_mem {g : String} (h : (s.networks.get? g).isSome = true) : (g, netOf s g) ∈ s.networks := by
  obtain ⟨n, hn⟩ := Option.isSome_iff_exists.mp h
  unfold netOf
  rw [hn]
  exact Dict.mem_of_get? hn

/-- C144 refuted for nodes linked to themselves: no arrow leaves or reaches a node that misses 10 -/
theorem C144_surplus_refuted : ∃ s solver b r a chart n, Ready s ∧ Answers solver s 0 Cmd.Optimal ∧ solveLp solver b s = .ok r ∧
    Analyzer.init (fun _ _ _ => .nan) s r = .ok a ∧ HasNode s "n" "a" n ∧ 0 < s.nbScn ∧ 0 < s.horizon ∧
    Viewer.map a (some [("a", (0, 0))]) "n" (0 : ℕ) (0 : ℕ) none = .ok chart ∧
    leaving ["a"] chart.arrows - reaching ["a"] chart.arrows = 0 ∧ ownSurplus s 0 (dispatchOf s r 0) "n" "a" n 0 = -10 := by
  obtain ⟨a, ha⟩ := init_total selfStudy_ready.built (mirrors_result (Built.inv selfStudy_ready.built) (fun _ => selfAnswer) ⟨[], [], 0, 0⟩)
    (fun _ _ _ => .nan) selfStudy_ready.complete (by decide +kernel) (by decide +kernel)
  have hsolved := Ready.solve selfStudy_ready (fun _ => selfAnswer) ⟨[], [], 0, 0⟩
  obtain ⟨chart, h1, h2⟩ := C144_surplus selfStudy_ready hsolved ha (netOf_mem (g := "n") (by decide +kernel)) (by decide +kernel)
    (coord := [("a", (0, 0))]) (by
      have : ∀ p ∈ (netOf selfStudy "n").nodes, p.1 = "a" := by decide +kernel
      intro p hp
      rw [this p hp]
      exact ⟨_, rfl⟩) (k := 0) (t := 0) (by decide +kernel) (by decide +kernel) (answers_feasible_of_optimal selfAnswer_optimal) none
  refine ⟨selfStudy, fun _ => selfAnswer, ⟨[], [], 0, 0⟩, _, a, chart, inNode selfStudy "n" "a", selfStudy_ready, selfAnswer_optimal,
    hsolved, ha, hasNode_inNode (by decide +kernel), by decide +kernel, by decide +kernel, h1, ?_, by decide +kernel⟩
  rw [h2]
  decide +kernel

/-- the arrow from `a` to `b` is the export of `a` -/
example : ∃ chart, Viewer.map anAnalyzer (some [("a", (0, 0)), ("b", (1, 1))]) "elec" (1 : ℕ) (1 : ℕ) none = .ok chart ∧
    leaving ["a"] chart.arrows - reaching ["a"] chart.arrows = 3 := by
  have hnet : (anNet "elec").nodes.map Prod.fst = ["a", "b"] := by decide +kernel
  have hco : ∀ p ∈ (anNet "elec").nodes, ∃ q, Dict.get? [("a", ((0 : ℚ), (0 : ℚ))), ("b", (1, 1))] p.1 = some q := by
    intro p hp
    have : p.1 ∈ ["a", "b"] := hnet ▸ List.mem_map_of_mem hp
    simp only [List.mem_cons, List.not_mem_nil, or_false] at this
    rcases this with h | h <;> rw [h] <;> exact ⟨_, rfl⟩
  obtain ⟨chart, h1, h2⟩ := C144 anStudy_built anResult_mirrors anAnalyzer_init
    (anNet_mem "elec" (by decide +kernel)) (by decide +kernel) hco (k := 1) (t := 1) (by decide +kernel)
    (by decide +kernel) none
  obtain ⟨chart', h1', h3, _⟩ := C61 anStudy_built anResult_mirrors anAnalyzer_init
    (anNet_mem "elec" (by decide +kernel)) (by decide +kernel) hco (k := 1) (t := 1) (by decide +kernel)
    (by decide +kernel) none
  obtain rfl : chart = chart' := by rw [h1] at h1'; exact Except.ok.inj h1'
  refine ⟨chart, h1, ?_⟩
  rw [h2, h3]
  decide +kernel

/-- on the map of a solved study -/
example : ∃ a chart, Analyzer.init (fun _ _ _ => .nan) priceStudy priceResult = .ok a ∧
    Viewer.map a (some [("a", (0, 0)), ("b", (1, 1))]) "elec" (1 : ℕ) (0 : ℕ) none = .ok chart ∧
    leaving ["a"] chart.arrows - reaching ["a"] chart.arrows = 2 := by
  obtain ⟨a, ha⟩ := init_total priceStudy_ready.built (mirrors_result (Built.inv priceStudy_ready.built) _ _) (fun _ _ _ => .nan)
    priceStudy_ready.complete (by decide +kernel) (by decide +kernel)
  obtain ⟨chart, h1, h2⟩ := C144_surplus_partial priceStudy_ready priceStudy_noSelf priceStudy_solved ha (netOf_mem (g := "elec") (by decide +kernel))
    (by decide +kernel) (coord := [("a", (0, 0)), ("b", (1, 1))])
    (by
      have : ∀ p ∈ (netOf priceStudy "elec").nodes, p.1 = "a" ∨ p.1 = "b" := by decide +kernel
      intro p hp
      rcases this p hp with h | h <;> rw [h] <;> exact ⟨_, rfl⟩) (k := 0) (t := 1) (by decide +kernel) (by decide +kernel)
    (answers_feasible_of_optimal priceAnswer_optimal) none
  refine ⟨a, chart, ha, h1, ?_⟩
  rw [h2]
  decide +kernel

end Hadar.Props
