import Verif.Spec.Timing
import Verif.Props.Whole

/-!
# C126: stored energy is given back at the best times and is not left over
-/

namespace Hadar.Props

open Hadar Spec

variable {s : Study} {k : ℕ} {solver : Solver} {b : Benchmark} {r : Result} {P : Prices} {D : Dispatch} {g d : String} {t m i : ℕ}
  {n : InputNode} {c : Storage} {u v : ℚ}

theorem helps_price (he : Equilibrium s k D P) (ht : t < s.horizon) (h : Helps s k D g d t v) : v ≤ P.node g d t := by
  obtain ⟨e, c, u, hr, hw, rfl⟩ := h
  linarith [reaches_price he ht hr, price_wouldSave he ht hw]

theorem available_price (he : Equilibrium s k D P) (ht : t < s.horizon) (h : Available s k D g d t u) : P.node g d t ≤ u := by
  obtain ⟨e, c, w, hp, hr, rfl⟩ := h
  linarith [reaches_price he ht hr, price_canProduce he ht hp]

theorem keeps_price (he : Equilibrium s k D P) (hn : HasNode s g d n) (hc : n.storages[i]? = some c) (hm : t + m < s.horizon)
    (hk : Keeps D g d i t m) : P.stored g d i t + holding k c t m ≤ P.stored g d i (t + m) := by
  induction m with
  | zero => simp [holding]
  | succ m ih =>
    have h1 := ih (by omega) fun j hj => hk j (by omega)
    have h2 := (he.held g d n hn i c hc (t + m) (by omega)).1
    have h3 := hk m (by omega)
    have e : P.storedNext s.horizon g d i (t + m) = P.stored g d i (t + (m + 1)) := by
      unfold Prices.storedNext
      rw [if_pos (by omega)]
      rfl
    rw [e] at h2
    by_contra hno
    have := h2 (by simp only [holding] at hno; linarith)
    linarith

theorem left_price (he : Equilibrium s k D P) (hn : HasNode s g d n) (hc : n.storages[i]? = some c) (ht : t < s.horizon)
    (hk : Keeps D g d i t (s.horizon - t)) : P.stored g d i t + holding k c t (s.horizon - t) ≤ 0 := by
  obtain ⟨m, hm⟩ : ∃ m, s.horizon - t = m + 1 := ⟨s.horizon - t - 1, by omega⟩
  rw [hm] at hk ⊢
  have h1 := keeps_price he hn hc (m := m) (by omega) fun j hj => hk j (by omega)
  have h2 := (he.held g d n hn i c hc (t + m) (by omega)).1
  have h3 := hk m (by omega)
  have e : P.storedNext s.horizon g d i (t + m) = 0 := by
    unfold Prices.storedNext
    rw [if_neg (by omega)]
  rw [e] at h2
  by_contra hno
  have := h2 (by simp only [holding] at hno; linarith)
  linarith

theorem more_out (he : Equilibrium s k D P) (hn : HasNode s g d n) (hc : n.storages[i]? = some c) (ht : t < s.horizon)
    (h : D.fout g d i t < val c.flowOut k t) : P.node g d t ≤ P.stored g d i t := by
  by_contra hno
  have := (he.emptied g d n hn i c hc t ht).2 (by linarith)
  linarith

theorem some_out (he : Equilibrium s k D P) (hn : HasNode s g d n) (hc : n.storages[i]? = some c) (ht : t < s.horizon)
    (h : 0 < D.fout g d i t) : P.stored g d i t ≤ P.node g d t := by
  by_contra hno
  have := (he.emptied g d n hn i c hc t ht).1 (by linarith)
  linarith

theorem more_in (he : Equilibrium s k D P) (hn : HasNode s g d n) (hc : n.storages[i]? = some c) (ht : t < s.horizon)
    (h : D.fin g d i t < val c.flowIn k t) : val c.eff k t * P.stored g d i t ≤ P.node g d t := by
  by_contra hno
  have := (he.filled g d n hn i c hc t ht).2 (by linarith)
  linarith

theorem some_in (he : Equilibrium s k D P) (hn : HasNode s g d n) (hc : n.storages[i]? = some c) (ht : t < s.horizon)
    (h : 0 < D.fin g d i t) : P.node g d t ≤ val c.eff k t * P.stored g d i t := by
  by_contra hno
  have := (he.filled g d n hn i c hc t ht).1 (by linarith)
  linarith

/-- C126: a storage that could give more at a time, and holds energy from then to the end, could not save anything by giving it: what it
would save does not make up for the negative costs of holding it -/
theorem C126_left (hs : Ready s) (hself : NoSelfLink s) (hk : k < s.nbScn) (hr : solveLp solver b s = .ok r)
    (ha : Answers solver s k Cmd.Optimal) (hn : HasNode s g d n) (hc : n.storages[i]? = some c) (ht : t < s.horizon)
    (hkeep : Keeps (dispatchOf s r k) g d i t (s.horizon - t)) (hout : (dispatchOf s r k).fout g d i t < val c.flowOut k t)
    (hv : Helps s k (dispatchOf s r k) g d t v) : v + holding k c t (s.horizon - t) ≤ 0 := by
  obtain ⟨P, he⟩ := C75 hs hself hk hr ha
  linarith [left_price he hn hc ht hkeep, more_out he hn hc ht hout, helps_price he ht hv]

theorem holding_nonneg (h : ∀ j < m, 0 ≤ val c.cost k (t + j)) : 0 ≤ holding k c t m := by
  induction m with
  | zero => simp [holding]
  | succ m ih =>
    simp only [holding]
    linarith [ih fun j hj => h j (by omega), h m (by omega)]

/-- C126: so a storage that is not paid for what it holds, and still holds energy at the end without having been empty since, has given
all it could whenever energy would have saved something -/
theorem C126_all (hs : Ready s) (hself : NoSelfLink s) (hk : k < s.nbScn) (hr : solveLp solver b s = .ok r)
    (ha : Answers solver s k Cmd.Optimal) (hn : HasNode s g d n) (hc : n.storages[i]? = some c) (ht : t < s.horizon)
    (hkeep : Keeps (dispatchOf s r k) g d i t (s.horizon - t)) (hcost : ∀ t < s.horizon, 0 ≤ val c.cost k t)
    (hv : Helps s k (dispatchOf s r k) g d t v) (hpos : 0 < v) : (dispatchOf s r k).fout g d i t = val c.flowOut k t := by
  have hD := C18_bounds hs hr hk fun st lg hl => (ha st lg hl).1.1
  rcases lt_or_eq_of_le (hD.storages g d n hn i c hc t ht).2.2.2 with h | h
  · have h1 := C126_left hs hself hk hr ha hn hc ht hkeep h hv
    have h2 := holding_nonneg (k := k) (c := c) (t := t) (m := s.horizon - t) fun j hj => hcost _ (by omega)
    linarith
  · exact h

/-- C126: energy that is put in a storage which is not emptied up to the end was of no use: what it would have saved does not exceed what
the storage is paid to hold it -/
theorem C126_unused (hs : Ready s) (hself : NoSelfLink s) (hk : k < s.nbScn) (hr : solveLp solver b s = .ok r)
    (ha : Answers solver s k Cmd.Optimal) (hn : HasNode s g d n) (hc : n.storages[i]? = some c) (ht : t < s.horizon)
    (hkeep : Keeps (dispatchOf s r k) g d i t (s.horizon - t)) (hin : 0 < (dispatchOf s r k).fin g d i t) (heff : 0 ≤ val c.eff k t)
    (hv : Helps s k (dispatchOf s r k) g d t v) : v + val c.eff k t * holding k c t (s.horizon - t) ≤ 0 := by
  obtain ⟨P, he⟩ := C75 hs hself hk hr ha
  have h1 := mul_le_mul_of_nonneg_left (left_price he hn hc ht hkeep) heff
  rw [mul_zero, mul_add] at h1
  linarith [some_in he hn hc ht hin, helps_price he ht hv]

/-- C126: energy held for later, while it could be given now, is worth at least as much later, with the cost of holding it -/
theorem C126_sooner (hs : Ready s) (hself : NoSelfLink s) (hk : k < s.nbScn) (hr : solveLp solver b s = .ok r)
    (ha : Answers solver s k Cmd.Optimal) (hn : HasNode s g d n) (hc : n.storages[i]? = some c) (hm : t + m < s.horizon)
    (hkeep : Keeps (dispatchOf s r k) g d i t m) (hout : (dispatchOf s r k).fout g d i t < val c.flowOut k t)
    (hgive : 0 < (dispatchOf s r k).fout g d i (t + m)) (hv : Helps s k (dispatchOf s r k) g d t v)
    (hu : Available s k (dispatchOf s r k) g d (t + m) u) : v + holding k c t m ≤ u := by
  obtain ⟨P, he⟩ := C75 hs hself hk hr ha
  linarith [keeps_price he hn hc hm hkeep, more_out he hn hc (by omega) hout, some_out he hn hc hm hgive, helps_price he (by omega) hv,
    available_price he hm hu]

/-- C126: energy given now, while it could be held and given later, saves at least as much now, but for the cost of holding it -/
theorem C126_later (hs : Ready s) (hself : NoSelfLink s) (hk : k < s.nbScn) (hr : solveLp solver b s = .ok r)
    (ha : Answers solver s k Cmd.Optimal) (hn : HasNode s g d n) (hc : n.storages[i]? = some c) (hm : t + m < s.horizon)
    (hroom : HasRoom k (dispatchOf s r k) g d i c t m) (hgive : 0 < (dispatchOf s r k).fout g d i t)
    (hout : (dispatchOf s r k).fout g d i (t + m) < val c.flowOut k (t + m)) (hu : Available s k (dispatchOf s r k) g d t u)
    (hv : Helps s k (dispatchOf s r k) g d (t + m) v) : v ≤ u + holding k c t m := by
  obtain ⟨P, he⟩ := C75 hs hself hk hr ha
  linarith [price_holding he hn hc hm hroom, more_out he hn hc hm hout, some_out he hn hc (by omega) hgive, helps_price he hm hv,
    available_price he (by omega) hu]

/-- C126: energy is put in a storage to be given back later only if it is worth it, with what is lost and the cost of holding it -/
theorem C126_worth (hs : Ready s) (hself : NoSelfLink s) (hk : k < s.nbScn) (hr : solveLp solver b s = .ok r)
    (ha : Answers solver s k Cmd.Optimal) (hn : HasNode s g d n) (hc : n.storages[i]? = some c) (hm : t + m < s.horizon)
    (hkeep : Keeps (dispatchOf s r k) g d i t m) (hin : 0 < (dispatchOf s r k).fin g d i t)
    (hgive : 0 < (dispatchOf s r k).fout g d i (t + m)) (heff : 0 < val c.eff k t) (hv : Helps s k (dispatchOf s r k) g d t v)
    (hu : Available s k (dispatchOf s r k) g d (t + m) u) : v / val c.eff k t + holding k c t m ≤ u := by
  obtain ⟨P, he⟩ := C75 hs hself hk hr ha
  have h1 : v / val c.eff k t ≤ P.stored g d i t := by
    rw [div_le_iff₀ heff]
    linarith [some_in he hn hc (by omega) hin, helps_price he (by omega) hv]
  linarith [keeps_price he hn hc hm hkeep, some_out he hn hc hm hgive, available_price he hm hu]

/-- C126: a storage is filled now, while it could be filled later, only if energy is not cheaper later ... -/
theorem C126_fill_later (hs : Ready s) (hself : NoSelfLink s) (hk : k < s.nbScn) (hr : solveLp solver b s = .ok r)
    (ha : Answers solver s k Cmd.Optimal) (hn : HasNode s g d n) (hc : n.storages[i]? = some c) (hm : t + m < s.horizon)
    (hkeep : Keeps (dispatchOf s r k) g d i t m) (hin : 0 < (dispatchOf s r k).fin g d i t)
    (hmore : (dispatchOf s r k).fin g d i (t + m) < val c.flowIn k (t + m)) (heff : 0 < val c.eff k t)
    (heff' : 0 < val c.eff k (t + m)) (hv : Helps s k (dispatchOf s r k) g d t v)
    (hu : Available s k (dispatchOf s r k) g d (t + m) u) : v / val c.eff k t + holding k c t m ≤ u / val c.eff k (t + m) := by
  obtain ⟨P, he⟩ := C75 hs hself hk hr ha
  have h1 : v / val c.eff k t ≤ P.stored g d i t := by
    rw [div_le_iff₀ heff]
    linarith [some_in he hn hc (by omega) hin, helps_price he (by omega) hv]
  have h2 : P.stored g d i (t + m) ≤ u / val c.eff k (t + m) := by
    rw [le_div_iff₀ heff']
    linarith [more_in he hn hc hm hmore, available_price he hm hu]
  linarith [keeps_price he hn hc hm hkeep]

/-- C126: ... and later, while it could be filled now, only if energy is not cheaper now, with the cost of holding it -/
theorem C126_fill_sooner (hs : Ready s) (hself : NoSelfLink s) (hk : k < s.nbScn) (hr : solveLp solver b s = .ok r)
    (ha : Answers solver s k Cmd.Optimal) (hn : HasNode s g d n) (hc : n.storages[i]? = some c) (hm : t + m < s.horizon)
    (hroom : HasRoom k (dispatchOf s r k) g d i c t m) (hin : 0 < (dispatchOf s r k).fin g d i (t + m))
    (hmore : (dispatchOf s r k).fin g d i t < val c.flowIn k t) (heff : 0 < val c.eff k t) (heff' : 0 < val c.eff k (t + m))
    (hv : Helps s k (dispatchOf s r k) g d (t + m) v) (hu : Available s k (dispatchOf s r k) g d t u) :
    v / val c.eff k (t + m) ≤ u / val c.eff k t + holding k c t m := by
  obtain ⟨P, he⟩ := C75 hs hself hk hr ha
  have h1 : v / val c.eff k (t + m) ≤ P.stored g d i (t + m) := by
    rw [div_le_iff₀ heff']
    linarith [some_in he hn hc hm hin, helps_price he hm hv]
  have h2 : P.stored g d i t ≤ u / val c.eff k t := by
    rw [le_div_iff₀ heff]
    linarith [more_in he hn hc (by omega) hmore, available_price he (by omega) hu]
  linarith [price_holding he hn hc hm hroom]

/-! ### A concrete case: a tank that loses half is filled at the first two steps, before the peak of the last two -/

def peakCalls : List Call :=
  [.studyNetwork "elec", .netNode 0 "a", .nodeConsumption 0 "load" (.num 100) (.array ⟨[4], [2, 3, 7, 7], rfl⟩),
   .nodeProduction 0 "base" (.num 10) (.num 4), .nodeProduction 0 "peak" (.num 30) (.num 5),
   .nodeStorage 0 ⟨"tank", .num 8, .num 3, .num 3, .num 1, 0, .num (1 / 2)⟩]

def peakStudy : Study := made 4 1 peakCalls

theorem peak_ready : Ready peakStudy where
  built := ⟨4, 1, _, rawCalls_of (by decide +kernel), rfl⟩
  complete := by unfold CompleteConverters; decide +kernel
  ratios := RatiosNonzero.usable (by unfold RatiosNonzero; decide +kernel)
  clean := cleanSources_of (by decide +kernel)

def peakAnswer : Var → ℚ
  | .prod _ "elec" "a" 0 => 4
  | .prod 2 "elec" "a" 1 => 3 / 2
  | .prod 3 "elec" "a" 1 => 3
  | .fin 0 "elec" "a" 0 => 2
  | .fin 1 "elec" "a" 0 => 1
  | .cap 0 "elec" "a" 0 => 1
  | .cap 1 "elec" "a" 0 => 3 / 2
  | .fout 2 "elec" "a" 0 => 3 / 2
  | _ => 0

def peakPrices : Prices :=
  ⟨fun _ _ t => if t = 0 then 14 else if t = 1 then 29 / 2 else 30, fun _ _ _ t => if t = 0 then 28 else if t = 1 then 29 else 30, fun _ _ _ => 0⟩

theorem peak_noSelf : NoSelfLink peakStudy := noSelf_of (by decide +kernel)

theorem peak_optimal : Answers (fun _ => peakAnswer) peakStudy 0 Cmd.Optimal :=
  optimal_of_prices (P := peakPrices) peak_ready peak_noSelf (oneStorage_of (by decide +kernel)) (by decide +kernel)
    (Cmd.feasible_of_check (by decide +kernel)) (equilibrium_of (by decide +kernel) (by decide +kernel))

def peakResult : Result := resultAll peakStudy (valsOf (fun _ => peakAnswer) peakStudy) ⟨[], [], 0, 0⟩

theorem peak_solved : solveLp (fun _ => peakAnswer) ⟨[], [], 0, 0⟩ peakStudy = .ok peakResult := Ready.solve peak_ready _ _

theorem peak_a : HasNode peakStudy "elec" "a" (inNode peakStudy "elec" "a") := hasNode_inNode (by decide +kernel)

def num4 (q : ℚ) : NumVal := ⟨.scalar q, 4, 1⟩

def peakTank : Storage := ⟨"tank", num4 8, num4 3, num4 3, num4 1, 0, num4 (1 / 2)⟩

/-- at every step, energy at `a` would save what base production costs ... -/
theorem peak_helps : ∀ t < 4, Helps peakStudy 0 (dispatchOf peakStudy peakResult 0) "elec" "a" t 10 := by
  intro t ht
  have h : ∀ t < 4, 0 < (dispatchOf peakStudy peakResult 0).prod "elec" "a" 0 t ∧ (10 : ℚ) = val (num4 10) 0 t := by decide +kernel
  exact ⟨"a", 0, 10, .here "a", .inl ⟨_, 0, ⟨"base", num4 10, num4 4⟩, peak_a, by decide +kernel, (h t ht).1, (h t ht).2⟩, by norm_num⟩

/-- ... and can be had for what peak production costs -/
theorem peak_available : ∀ t < 4, Available peakStudy 0 (dispatchOf peakStudy peakResult 0) "elec" "a" t 30 := by
  intro t ht
  have h : ∀ t < 4, (dispatchOf peakStudy peakResult 0).prod "elec" "a" 1 t < val (num4 5) 0 t ∧ (30 : ℚ) = val (num4 30) 0 t := by
    decide +kernel
  exact ⟨"a", 0, 30, ⟨_, 1, ⟨"peak", num4 30, num4 5⟩, peak_a, by decide +kernel, (h t ht).1, (h t ht).2⟩, .here "a", by norm_num⟩

theorem peak_tank : (inNode peakStudy "elec" "a").storages[0]? = some peakTank := by decide +kernel

theorem peak_scn : 0 < peakStudy.nbScn := by decide +kernel

/-- what is held from the second step to the third -/
example : (10 : ℚ) + holding 0 peakTank 1 1 ≤ 30 :=
  C126_sooner peak_ready peak_noSelf peak_scn peak_solved peak_optimal peak_a peak_tank (by decide +kernel)
    (by unfold Keeps; decide +kernel) (by decide +kernel) (by decide +kernel) (peak_helps 1 (by norm_num)) (peak_available 2 (by norm_num))

/-- what is given at the third step rather than at the last, where it would also save 30 -/
example : (30 : ℚ) ≤ 30 + holding 0 peakTank 2 1 :=
  C126_later peak_ready peak_noSelf peak_scn peak_solved peak_optimal peak_a peak_tank (by decide +kernel)
    (by unfold HasRoom; decide +kernel) (by decide +kernel) (by decide +kernel) (peak_available 2 (by norm_num))
    ⟨"a", 0, 30, .here "a", .inl ⟨_, 1, ⟨"peak", num4 30, num4 5⟩, peak_a, by decide +kernel, by decide +kernel, by decide +kernel⟩, by norm_num⟩

/-- what is put in at the first step and given back at the third: 20 + 2 is not more than 30 -/
example : 10 / val peakTank.eff 0 0 + holding 0 peakTank 0 2 ≤ 30 :=
  C126_worth peak_ready peak_noSelf peak_scn peak_solved peak_optimal peak_a peak_tank (by decide +kernel)
    (by unfold Keeps; decide +kernel) (by decide +kernel) (by decide +kernel) (by decide +kernel) (peak_helps 0 (by norm_num))
    (peak_available 2 (by norm_num))

example : 10 / val peakTank.eff 0 0 + holding 0 peakTank 0 1 ≤ 30 / val peakTank.eff 0 1 :=
  C126_fill_later peak_ready peak_noSelf peak_scn peak_solved peak_optimal peak_a peak_tank (m := 1) (by decide +kernel)
    (by unfold Keeps; decide +kernel) (by decide +kernel) (by decide +kernel) (by decide +kernel) (by decide +kernel)
    (peak_helps 0 (by norm_num)) (peak_available 1 (by norm_num))

example : 10 / val peakTank.eff 0 1 ≤ 30 / val peakTank.eff 0 0 + holding 0 peakTank 0 1 :=
  C126_fill_sooner peak_ready peak_noSelf peak_scn peak_solved peak_optimal peak_a peak_tank (m := 1) (by decide +kernel)
    (by unfold HasRoom; decide +kernel) (by decide +kernel) (by decide +kernel) (by decide +kernel) (by decide +kernel)
    (peak_helps 1 (by norm_num)) (peak_available 0 (by norm_num))

/-! ### A dam that cannot give all it holds before the end -/

def damStudy : Study := made 2 1
  [.studyNetwork "elec", .netNode 0 "a", .nodeConsumption 0 "load" (.num 100) (.num 3), .nodeProduction 0 "base" (.num 10) (.num 4),
   .nodeStorage 0 ⟨"dam", .num 8, .num 1, .num 1, .num 0, 5, .num 1⟩]

theorem dam_ready : Ready damStudy where
  built := ⟨2, 1, _, rawCalls_of (by decide +kernel), rfl⟩
  complete := by unfold CompleteConverters; decide +kernel
  ratios := RatiosNonzero.usable (by unfold RatiosNonzero; decide +kernel)
  clean := cleanSources_of (by decide +kernel)

def damAnswer : Var → ℚ
  | .prod _ "elec" "a" 0 => 2
  | .cap 0 "elec" "a" 0 => 4
  | .cap 1 "elec" "a" 0 => 3
  | .fout _ "elec" "a" 0 => 1
  | _ => 0

theorem dam_noSelf : NoSelfLink damStudy := noSelf_of (by decide +kernel)

theorem dam_optimal : Answers (fun _ => damAnswer) damStudy 0 Cmd.Optimal :=
  optimal_of_prices (P := ⟨fun _ _ _ => 10, fun _ _ _ _ => 0, fun _ _ _ => 0⟩) dam_ready dam_noSelf (oneStorage_of (by decide +kernel))
    (by decide +kernel) (Cmd.feasible_of_check (by decide +kernel)) (equilibrium_of (by decide +kernel) (by decide +kernel))

def damResult : Result := resultAll damStudy (valsOf (fun _ => damAnswer) damStudy) ⟨[], [], 0, 0⟩

theorem dam_solved : solveLp (fun _ => damAnswer) ⟨[], [], 0, 0⟩ damStudy = .ok damResult := Ready.solve dam_ready _ _

theorem dam_a : HasNode damStudy "elec" "a" (inNode damStudy "elec" "a") := hasNode_inNode (by decide +kernel)

def damTank : Storage := ⟨"dam", numOf 8, numOf 1, numOf 1, numOf 0, 5, numOf 1⟩

/-- it gives all it can at both steps -/
example : (dispatchOf damStudy damResult 0).fout "elec" "a" 0 0 = val damTank.flowOut 0 0 :=
  C126_all (v := 10) (c := damTank) dam_ready dam_noSelf (by decide +kernel) dam_solved dam_optimal dam_a (by decide +kernel) (by decide +kernel)
    (by unfold Keeps; decide +kernel) (by decide +kernel)
    ⟨"a", 0, 10, .here "a", .inl ⟨_, 0, ⟨"base", numOf 10, numOf 4⟩, dam_a, by decide +kernel, by decide +kernel, by decide +kernel⟩,
      by norm_num⟩ (by norm_num)

/-! ### The same dam beside a free production -/

def breezyStudy : Study := made 2 1
  [.studyNetwork "elec", .netNode 0 "a", .nodeConsumption 0 "load" (.num 100) (.num 1), .nodeProduction 0 "wind" (.num 0) (.num 4),
   .nodeStorage 0 ⟨"dam", .num 8, .num 1, .num 1, .num 0, 5, .num 1⟩]

theorem breezy_ready : Ready breezyStudy where
  built := ⟨2, 1, _, rawCalls_of (by decide +kernel), rfl⟩
  complete := by unfold CompleteConverters; decide +kernel
  ratios := RatiosNonzero.usable (by unfold RatiosNonzero; decide +kernel)
  clean := cleanSources_of (by decide +kernel)

def breezyAnswer : Var → ℚ
  | .prod 0 "elec" "a" 0 => 2
  | .prod 1 "elec" "a" 0 => 1
  | .cap _ "elec" "a" 0 => 6
  | .fin 0 "elec" "a" 0 => 1
  | _ => 0

theorem breezy_noSelf : NoSelfLink breezyStudy := noSelf_of (by decide +kernel)

theorem breezy_optimal : Answers (fun _ => breezyAnswer) breezyStudy 0 Cmd.Optimal :=
  optimal_of_prices (P := ⟨fun _ _ _ => 0, fun _ _ _ _ => 0, fun _ _ _ => 0⟩) breezy_ready breezy_noSelf (oneStorage_of (by decide +kernel))
    (by decide +kernel) (Cmd.feasible_of_check (by decide +kernel)) (equilibrium_of (by decide +kernel) (by decide +kernel))

def breezyResult : Result := resultAll breezyStudy (valsOf (fun _ => breezyAnswer) breezyStudy) ⟨[], [], 0, 0⟩

theorem breezy_solved : solveLp (fun _ => breezyAnswer) ⟨[], [], 0, 0⟩ breezyStudy = .ok breezyResult := Ready.solve breezy_ready _ _

theorem breezy_a : HasNode breezyStudy "elec" "a" (inNode breezyStudy "elec" "a") := hasNode_inNode (by decide +kernel)

theorem breezy_helps : Helps breezyStudy 0 (dispatchOf breezyStudy breezyResult 0) "elec" "a" 0 0 :=
  ⟨"a", 0, 0, .here "a", .inl ⟨_, 0, ⟨"wind", numOf 0, numOf 4⟩, breezy_a, by decide +kernel, by decide +kernel, by decide +kernel⟩, by norm_num⟩

/-- it keeps what would not save anything -/
example : (0 : ℚ) + holding 0 damTank 0 (breezyStudy.horizon - 0) ≤ 0 :=
  C126_left (i := 0) breezy_ready breezy_noSelf (by decide +kernel) breezy_solved breezy_optimal breezy_a (by decide +kernel) (by decide +kernel)
    (by unfold Keeps; decide +kernel) (by decide +kernel) breezy_helps

example : (0 : ℚ) + val damTank.eff 0 0 * holding 0 damTank 0 (breezyStudy.horizon - 0) ≤ 0 :=
  C126_unused (i := 0) breezy_ready breezy_noSelf (by decide +kernel) breezy_solved breezy_optimal breezy_a (by decide +kernel) (by decide +kernel)
    (by unfold Keeps; decide +kernel) (by decide +kernel) (by decide +kernel) breezy_helps

end Hadar.Props
