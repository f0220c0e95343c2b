import Verif.Proofs.Rough
import Verif.Props.Tolerance
import Verif.Props.Energy
import Verif.Props.ViewerStack

/-!
# C143: accounts and charts of results with small errors
-/

namespace Hadar.Props

open Hadar Spec

variable {s : Study} {k : ℕ} {solver : Solver} {b : Benchmark} {r : Result} {e : ℚ} {junk : Junk} {a : Analyzer}

/-- C143 (partial): at each time step, accounts close up to one error for each node. Missing: links from a node to itself and several storages
at a node (C80). -/
theorem C143_step_partial (hs : Ready s) (hself : NoSelfLink s) (h1 : OneStorage s) (hk : k < s.nbScn) (hr : solveLp solver b s = .ok r)
    (ha : Answers solver s k (NearAnswer e)) {t : ℕ} (ht : t < s.horizon) :
    Near (nodeNumber s * e)
      (served s k (dispatchOf s r k) t + put s (dispatchOf s r k) t + used s (dispatchOf s r k) t)
      (produced s (dispatchOf s r k) t + released s (dispatchOf s r k) t + converted s (dispatchOf s r k) t) :=
  near_step (Built.inv hs.built) (Ready.dest hs) (C101_near hs hself h1 hk hr ha) ht

/-- C143 (partial): over the study, accounts close up to one error for each node and each storage at each time step. Missing: as above. -/
theorem C143_total_partial (hs : Ready s) (hself : NoSelfLink s) (h1 : OneStorage s) (hk : k < s.nbScn) (hr : solveLp solver b s = .ok r)
    (ha : Answers solver s k (NearAnswer e)) :
    Near (s.horizon * (nodeNumber s + storageNumber s) * e)
      (overTime s (served s k (dispatchOf s r k)) + overTime s (used s (dispatchOf s r k)) +
        overTime s (lost s k (dispatchOf s r k)) + heldLast s (dispatchOf s r k))
      (overTime s (produced s (dispatchOf s r k)) + overTime s (converted s (dispatchOf s r k)) + heldFirst s) :=
  near_total (Built.inv hs.built) (Ready.dest hs) (C101_near hs hself h1 hk hr ha)

/-- C143 (partial): the stack of what is used at a node is as high as the stack of what is given, up to one error. Missing: as in
`C60_partial`. -/
theorem C143_stack_partial (hs : Ready s) (hself : NoSelfLink s) (h1 : OneStorage s) (hr : solveLp solver b s = .ok r)
    (hi : Analyzer.init junk s r = .ok a) {g d : String} {n : InputNode} (hn : HasNode s g d n)
    (h1s : n.storages ≠ [] → storageCount s ≤ 1)
    (hsrc : (∃ p ∈ s.converters, [g, d] ∈ p.2.srcRatios.map Prod.fst) →
      RatiosUsable s ∧ ∀ p ∈ s.converters, p.2.srcRatios.length = 1)
    (hk : k < s.nbScn) (ha : Answers solver s k (NearAnswer e)) (hh : 0 < s.horizon) {srt : Viewer.SortValues} (hsrt : Descending srt) :
    ∃ chart, Viewer.stack a srt g d (k : ℤ) "used" "given" = .ok chart ∧
      ∀ t < s.horizon, Near e (areasTop chart t) (linesTop chart t) := by
  have hm : Mirrors s r := by
    obtain rfl := Ready.result hs hr
    exact mirrors_result (Built.inv hs.built) _ _
  obtain ⟨chart, P, O, A, I, C, S, D, X, h0, c1, c2, c3, c4, c5, c6, c7, c8, c9, c10⟩ :=
    C60_bands_partial hs.built hm hi hn h1s hsrc hk hh hsrt (pk := "used") (.inl rfl) (ck := "given") (.inl rfl)
  refine ⟨chart, h0, fun t ht => ?_⟩
  have htop := stack_tops hs.built c1 c2 c3 c4 c5 c6 c7 c8 c9 c10 ht
  obtain ⟨b1, b2⟩ := (C101_near hs hself h1 hk hr ha).balanced g d n hn t ht
  unfold incoming outgoing at b1 b2
  have e1 : sumL (productionBands s r g d n "used" k) (fun e => e.2.2 t) =
      sumI n.productions fun _ i => (dispatchOf s r k).prod g d i t := by
    unfold productionBands; rw [sumL_map]; rfl
  have e2 : sumL (consumptionBands s r g d n "given" k) (fun e => e.2.2 t) =
      sumI n.consumptions fun c i => val c.quantity k t - (dispatchOf s r k).lol g d i t := by
    unfold consumptionBands; rw [sumL_map]; rfl
  rw [e1, e2] at htop
  constructor <;> linarith

/-- C143 (partial): candles follow one another and drift from the recorded level by one error at each time step at most. Missing: studies
with several storages (C59). -/
theorem C143_candles_partial (hs : Ready s) (hself : NoSelfLink s) (h1 : OneStorage s) (hr : solveLp solver b s = .ok r)
    (hi : Analyzer.init junk s r = .ok a) (h1s : storageCount s ≤ 1) {g d : String} {n : InputNode} {i : ℕ} {c : Storage}
    (hn : HasNode s g d n) (hc : n.storages[i]? = some c) (hk : k < s.nbScn) (ha : Answers solver s k (NearAnswer e))
    (hh : 0 < s.horizon) :
    ∃ opens closes, Viewer.candles a g d c.name (k : ℤ) = .ok (opens, closes) ∧
      NearCandles e s.horizon c.initCapacity (fun t => (dispatchOf s r k).cap g d i t) (fun t => val c.capacity k t) opens closes := by
  have hm : Mirrors s r := by
    obtain rfl := Ready.result hs hr
    exact mirrors_result (Built.inv hs.built) _ _
  obtain ⟨delta, hdelta, hcan⟩ := candles_ok hs.built hm hi h1s hn hc hk hh
  have hD := C101_near hs hself h1 hk hr ha
  have hlev : ∀ t, levels c.initCapacity delta (t + 1) = levelFrom k (dispatchOf s r k) g d i c t := by
    intro t
    unfold levelFrom
    induction t with
    | zero =>
      show c.initCapacity + delta 0 = _
      rw [hdelta]
      simp [sumL]
    | succ t ih =>
      show levels c.initCapacity delta (t + 1) + delta (t + 1) = _
      rw [ih, hdelta, List.range_succ (n := t + 1), sumL_append]
      simp only [sumL, List.map_cons, List.map_nil, List.sum_cons, List.sum_nil, add_zero]
      ring
  refine ⟨_, _, hcan, by simp, by simp, ?_, ?_, ?_⟩
  · intro _
    rw [List.getElem?_map, List.getElem?_range hh]; rfl
  · intro t ht
    rw [List.getElem?_map, List.getElem?_map, List.getElem?_range ht, List.getElem?_range (by omega)]; rfl
  · intro t ht
    refine ⟨_, by rw [List.getElem?_map, List.getElem?_range ht, Option.map_some, hlev t], ?_, ?_⟩
    · obtain ⟨x, y⟩ := level_near hD hn hc t ht
      exact ⟨y, x⟩
    · obtain ⟨x, y⟩ := level_near hD hn hc t ht
      obtain ⟨u, v⟩ := (hD.bounds.storages g d n hn i c hc t ht).1
      constructor <;> linarith

/-! ### Examples -/

theorem priceStudy_count : storageCount priceStudy ≤ 1 := by decide +kernel

theorem priceStudy_sources : RatiosUsable priceStudy ∧ ∀ p ∈ priceStudy.converters, p.2.srcRatios.length = 1 :=
  ⟨RatiosNonzero.usable (by unfold RatiosNonzero; decide +kernel), by decide +kernel⟩

/-- three nodes -/
example : nodeNumber priceStudy = 3 ∧ storageNumber priceStudy = 1 := by decide +kernel

example := C143_step_partial priceStudy_ready priceStudy_noSelf priceStudy_one (by decide +kernel) rough_solved roughAnswer_near (t := 1)
  (by decide +kernel)

example := C143_total_partial priceStudy_ready priceStudy_noSelf priceStudy_one (by decide +kernel) rough_solved roughAnswer_near

/-- the account of the rough result does not close exactly -/
example : ¬ served priceStudy 0 (dispatchOf priceStudy roughResult 0) 0 + put priceStudy (dispatchOf priceStudy roughResult 0) 0 +
    used priceStudy (dispatchOf priceStudy roughResult 0) 0 = produced priceStudy (dispatchOf priceStudy roughResult 0) 0 +
    released priceStudy (dispatchOf priceStudy roughResult 0) 0 + converted priceStudy (dispatchOf priceStudy roughResult 0) 0 := by
  decide +kernel

/-- charts of the rough result -/
example : ∃ a chart opens closes, Analyzer.init (fun _ _ _ => .nan) priceStudy roughResult = .ok a ∧
    Viewer.stack a highestFirst "elec" "a" (0 : ℕ) "used" "given" = .ok chart ∧
    (∀ t < priceStudy.horizon, Near (1 / 1000) (areasTop chart t) (linesTop chart t)) ∧
    Viewer.candles a "elec" "a" "cell" (0 : ℕ) = .ok (opens, closes) ∧
    NearCandles (1 / 1000) priceStudy.horizon 0 (fun t => (dispatchOf priceStudy roughResult 0).cap "elec" "a" 0 t) (val (numOf 8) 0) opens closes := by
  obtain ⟨a, ha⟩ := init_total priceStudy_ready.built (mirrors_result (Built.inv priceStudy_ready.built) _ _) (fun _ _ _ => .nan)
    priceStudy_ready.complete (by decide +kernel) (by decide +kernel)
  obtain ⟨chart, h1, h2⟩ := C143_stack_partial priceStudy_ready priceStudy_noSelf priceStudy_one rough_solved ha priceStudy_a
    (fun _ => priceStudy_count) (fun _ => priceStudy_sources) (k := 0) (by decide +kernel) roughAnswer_near (by decide +kernel)
    highestFirst_descending
  obtain ⟨opens, closes, h3, h4⟩ := C143_candles_partial priceStudy_ready priceStudy_noSelf priceStudy_one rough_solved ha priceStudy_count
    priceStudy_a (i := 0) (c := ⟨"cell", numOf 8, numOf 2, numOf 2, numOf 1, 0, numOf (1 / 2)⟩) (by decide +kernel) (k := 0)
    (by decide +kernel) roughAnswer_near (by decide +kernel)
  refine ⟨a, chart, opens, closes, ha, h1, h2, h3, ?_⟩
  exact h4

end Hadar.Props
