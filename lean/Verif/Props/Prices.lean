import Verif.Proofs.Prices
import Verif.Props.LPExamples

/-!
# C75, C76: prices, and what they say of a least cost dispatch
-/

namespace Hadar

open Spec

variable {s : Study} {k : ℕ} {P : Prices} {D : Dispatch}

theorem Ready.dest (hs : Ready s) : ∀ p ∈ s.converters, ∃ n, HasNode s p.2.destNetwork p.2.destNode n := by
  intro p hp
  rcases ((Built.inv hs.built).convs p hp).dest with h | h
  · exact absurd h.2.2.1 (hs.complete p hp).1
  · exact h

theorem code_prices (hs : Ready s) (hself : NoSelfLink s) (hD : CodeFeasible s k D)
    (ho : ∀ D', CodeFeasible s k D' → cost s k D ≤ cost s k D') : ∃ P, Equilibrium s k D P := by
  have hi := Built.inv hs.built
  rw [← ofVars_toVars D]
  apply exists_prices hi hself (Ready.dest hs)
  refine ⟨(feasible_iff hi k _).mpr (by rw [ofVars_toVars]; exact hD), fun y hy => ?_⟩
  rw [objective_eq hi, objective_eq hi, ofVars_toVars]
  exact ho _ ((feasible_iff hi k y).mp hy)

theorem reaches_price (he : Equilibrium s k D P) {g d e : String} {t : ℕ} (ht : t < s.horizon) {c : ℚ}
    (h : Reaches s k D g t d e c) : P.node g e t ≤ P.node g d t + c := by
  induction h with
  | here => simp
  | more hn hl hq _ ih =>
    have := (he.links _ _ _ hn _ _ hl t ht).2
    by_contra hc
    have := this (by linarith)
    linarith
  | less hn hl hq _ ih =>
    have := (he.links _ _ _ hn _ _ hl t ht).1
    by_contra hc
    have := this (by linarith)
    linarith

theorem price_canProduce (he : Equilibrium s k D P) {g d : String} {t : ℕ} (ht : t < s.horizon) {c : ℚ}
    (h : CanProduce s k D g d t c) : P.node g d t ≤ c := by
  obtain ⟨n, i, p, hn, hp, hq, rfl⟩ := h
  by_contra hc
  have := (he.productions g d n hn i p hp t ht).2 (by linarith)
  linarith

theorem price_wouldSave (he : Equilibrium s k D P) {g d : String} {t : ℕ} (ht : t < s.horizon) {c : ℚ}
    (h : WouldSave s k D g d t c) : c ≤ P.node g d t := by
  rcases h with ⟨n, i, p, hn, hp, hq, rfl⟩ | ⟨n, i, p, hn, hp, hq, rfl⟩
  · by_contra hc
    have := (he.productions g d n hn i p hp t ht).1 (by linarith)
    linarith
  · by_contra hc
    have := (he.consumptions g d n hn i p hp t ht).1 (by linarith)
    linarith

theorem price_holding (he : Equilibrium s k D P) {g d : String} {n : InputNode} (hn : HasNode s g d n) {i : ℕ} {st : Storage}
    (hst : n.storages[i]? = some st) {t m : ℕ} (hm : t + m < s.horizon)
    (hh : ∀ j < m, D.cap g d i (t + j) < val st.capacity k (t + j)) :
    P.stored g d i (t + m) ≤ P.stored g d i t + holding k st t m := by
  induction m with
  | zero => simp [holding]
  | succ m ih =>
    have h1 := ih (by omega) fun j hj => hh j (by omega)
    have h2 := (he.held g d n hn i st hst (t + m) (by omega)).2
    have h3 := hh m (by omega)
    have e : P.storedNext s.horizon g d i (t + m) = P.stored g d i (t + (m + 1)) := by
      unfold Prices.storedNext
      rw [if_pos (by omega)]
      rfl
    rw [e] at h2
    by_contra hc
    have := h2 (by simp only [holding] at hc; linarith)
    linarith

namespace Props

variable {solver : Solver} {b : Benchmark} {r : Result}

/-- C75: the result of `solve_lp` comes with prices -/
theorem C75 (hs : Ready s) (hself : NoSelfLink s) (hk : k < s.nbScn) (hr : solveLp solver b s = .ok r)
    (ha : Answers solver s k Cmd.Optimal) : ∃ P, Equilibrium s k (dispatchOf s r k) P := by
  obtain rfl := Ready.result hs hr
  have ho := optimal_result (Built.inv hs.built) hk _ b (Ready.answer hs hk ha)
  exact code_prices hs hself ho.1 ho.2

/-- C75: prices prove that a dispatch costs the least, whatever the number of storages of nodes -/
theorem C75_certificate (hs : Ready s) (hD : Spec.Feasible s k D) (he : Equilibrium s k D P) {D' : Dispatch}
    (hD' : Spec.Feasible s k D') : cost s k D ≤ cost s k D' :=
  equilibrium_least (Built.inv hs.built) (Ready.dest hs) hD he hD'

/-- C75: the dispatches of least cost are those with prices -/
theorem C75_iff (hs : Ready s) (hself : NoSelfLink s) (h1 : OneStorage s) (hD : Spec.Feasible s k D) :
    (∀ D', Spec.Feasible s k D' → cost s k D ≤ cost s k D') ↔ ∃ P, Equilibrium s k D P := by
  constructor
  · intro h
    exact code_prices hs hself (code_of_feasible hself hD) fun D' hD' => h D' (feasible_of_code hself h1 hD')
  · rintro ⟨P, he⟩ D' hD'
    exact C75_certificate hs hD he hD'

/-- C76: energy that would save `v` at a node is not brought from another node of the network only if it costs at least `v` to produce
it there and bring it -/
theorem C76 (hs : Ready s) (hself : NoSelfLink s) (hk : k < s.nbScn) (hr : solveLp solver b s = .ok r)
    (ha : Answers solver s k Cmd.Optimal) {g d e : String} {t : ℕ} (ht : t < s.horizon) {c u v : ℚ}
    (hp : CanProduce s k (dispatchOf s r k) g d t u) (hc : Reaches s k (dispatchOf s r k) g t d e c)
    (hv : WouldSave s k (dispatchOf s r k) g e t v) : v ≤ u + c := by
  obtain ⟨P, he⟩ := C75 hs hself hk hr ha
  linarith [price_canProduce he ht hp, reaches_price he ht hc, price_wouldSave he ht hv]

/-- C76: no way to send energy round saves money -/
theorem C76_loops (hs : Ready s) (hself : NoSelfLink s) (hk : k < s.nbScn) (hr : solveLp solver b s = .ok r)
    (ha : Answers solver s k Cmd.Optimal) {g d : String} {t : ℕ} (ht : t < s.horizon) {c : ℚ}
    (hc : Reaches s k (dispatchOf s r k) g t d d c) : 0 ≤ c := by
  obtain ⟨P, he⟩ := C75 hs hself hk hr ha
  linarith [reaches_price he ht hc]

/-- C76: energy is not kept for later in a storage that could keep more only if that costs at least what it would save, counting what is
lost by the storage -/
theorem C76_storage (hs : Ready s) (hself : NoSelfLink s) (hk : k < s.nbScn) (hr : solveLp solver b s = .ok r)
    (ha : Answers solver s k Cmd.Optimal) {g d : String} {n : InputNode} (hn : HasNode s g d n) {i : ℕ} {st : Storage}
    (hst : n.storages[i]? = some st) {t m : ℕ} (hm : t + m < s.horizon) (heff : 0 ≤ val st.eff k t)
    (hin : (dispatchOf s r k).fin g d i t < val st.flowIn k t)
    (hh : ∀ j < m, (dispatchOf s r k).cap g d i (t + j) < val st.capacity k (t + j))
    (hout : (dispatchOf s r k).fout g d i (t + m) < val st.flowOut k (t + m)) {u v : ℚ}
    (hp : CanProduce s k (dispatchOf s r k) g d t u) (hv : WouldSave s k (dispatchOf s r k) g d (t + m) v) :
    val st.eff k t * (v - holding k st t m) ≤ u := by
  obtain ⟨P, he⟩ := C75 hs hself hk hr ha
  have h1 := price_canProduce he (by omega) hp
  have h2 := price_wouldSave he hm hv
  have h3 := price_holding he hn hst hm hh
  have h4 : val st.eff k t * P.stored g d i t ≤ P.node g d t := by
    by_contra hc
    have := (he.filled g d n hn i st hst t (by omega)).2 (by linarith)
    linarith
  have h5 : P.node g d (t + m) ≤ P.stored g d i (t + m) := by
    by_contra hc
    have := (he.emptied g d n hn i st hst (t + m) hm).2 (by linarith)
    linarith
  have h6 : v - holding k st t m ≤ P.stored g d i t := by linarith
  linarith [mul_le_mul_of_nonneg_left h6 heff]

/-- C76: a converter that could give more does not only if that costs at least what it would save -/
theorem C76_converter (hs : Ready s) (hself : NoSelfLink s) (hk : k < s.nbScn) (hr : solveLp solver b s = .ok r)
    (ha : Answers solver s k Cmd.Optimal) {p : String × Converter} (hp : p ∈ s.converters) {t : ℕ} (ht : t < s.horizon)
    (hpos : ∀ q ∈ p.2.srcRatios, 0 < val q.2 k t)
    (hgive : (dispatchOf s r k).convDest p.1 t < fval p.2.max k t) {u : String × String → ℚ}
    (hprod : ∀ g d, [g, d] ∈ p.2.srcRatios.map Prod.fst → CanProduce s k (dispatchOf s r k) g d t (u (g, d))) {v : ℚ}
    (hv : WouldSave s k (dispatchOf s r k) p.2.destNetwork p.2.destNode t v) :
    v ≤ fval p.2.cost k t + sumL p.2.srcRatios fun q => u (srcPair q.1) / val q.2 k t := by
  have hi := Built.inv hs.built
  have hrat : RatiosOk s k (dispatchOf s r k) := by
    obtain rfl := Ready.result hs hr
    exact (optimal_result hi hk _ b (Ready.answer hs hk ha)).1.ratios
  obtain ⟨P, he⟩ := C75 hs hself hk hr ha
  have h1 := price_wouldSave he ht hv
  have h2 : P.node p.2.destNetwork p.2.destNode t ≤ fval p.2.cost k t + sumL p.2.srcRatios fun q => P.used p.1 (srcPair q.1) t := by
    by_contra hc
    have := (he.given p hp t ht).2 (by linarith)
    linarith
  have h3 : (sumL p.2.srcRatios fun q => P.used p.1 (srcPair q.1) t) ≤
      sumL p.2.srcRatios fun q => u (srcPair q.1) / val q.2 k t := by
    apply sumL_le
    intro q hq
    obtain ⟨g, d, n, e, hn⟩ := (hi.convs p hp).sources q.1 (List.mem_map.mpr ⟨q, hq, rfl⟩)
    have hq' : ([g, d], q.2) ∈ p.2.srcRatios := by rw [← e]; exact hq
    have h0 := hpos q hq
    have h4 := price_canProduce he ht (hprod g d (List.mem_map.mpr ⟨_, hq', rfl⟩))
    rw [e]
    simp only [srcPair]
    rw [le_div_iff₀ h0]
    have h5 := hrat p hp g d q.2 hq' t ht
    have h6 : (dispatchOf s r k).convSrc p.1 (g, d) t < fval p.2.max k t / val q.2 k t := by
      rw [lt_div_iff₀ h0]
      linarith
    by_contra hc
    have := ((he.taken p hp g d q.2 hq' t ht).1 h0.ne').2 (by linarith)
    linarith
  linarith

/-! ### A concrete case -/

instance (c x u : ℚ) : Decidable (Best c x u) := inferInstanceAs (Decidable (_ ∧ _))

def priceCalls : List Call :=
  [.studyNetwork "elec", .netNode 0 "a", .nodeConsumption 0 "load" (.num 100) (.num 1),
   .nodeProduction 0 "nuke" (.num 20) (.num 15),
   .nodeStorage 0 ⟨"cell", .num 8, .num 2, .num 2, .num 1, 0, .num (1/2)⟩,
   .netNode 0 "b", .nodeConsumption 0 "load" (.num 100) (.num 6), .nodeProduction 0 "fuel" (.num 15) (.num 4),
   .netLink 0 "a" "b" (.num 1) (.num 4),
   .studyNetwork "gas", .netNode 1 "g", .nodeProduction 1 "well" (.num 12) (.num 10),
   .nodeToConverter 1 "conv" (.num (1/2)),
   .nodeConverter 1 "conv" "elec" "b" (.num 3) (.num 2)]

def priceStudy : Study := ((World.start 2 1).run priceCalls).study

def priceAnswer : Var → ℚ
  | .prod _ "elec" "a" 0 => 3
  | .prod _ "elec" "b" 0 => 4
  | .link _ "elec" "a" 0 => 2
  | _ => 0

def somePrices : Prices where
  node g d _ := if g = "gas" then 12 else if d = "a" then 20 else 21
  stored _ _ _ _ := 20
  used _ _ _ := 24

theorem priceStudy_ready : Ready priceStudy where
  built := ⟨2, 1, priceCalls, by
    intro c hc
    simp only [priceCalls, List.mem_cons, List.not_mem_nil, or_false] at hc
    rcases hc with rfl | rfl | rfl | rfl | rfl | rfl | rfl | rfl | rfl | rfl | rfl | rfl | rfl | rfl <;>
      simp [RawCall], rfl⟩
  complete := by unfold CompleteConverters; decide +kernel
  ratios := RatiosNonzero.usable (by unfold RatiosNonzero; decide +kernel)
  clean := cleanSources_of (by decide +kernel)

theorem priceStudy_noSelf : NoSelfLink priceStudy := by
  rintro g d n ⟨net, hg, hd⟩
  have : ∀ p ∈ priceStudy.networks, ∀ q ∈ p.2.nodes, ∀ l ∈ q.2.links, l.dest ≠ q.1 := by decide +kernel
  exact this _ hg _ hd

theorem priceStudy_one : OneStorage priceStudy := by
  rintro g d n ⟨net, hg, hd⟩
  have : ∀ p ∈ priceStudy.networks, ∀ q ∈ p.2.nodes, q.2.storages.length ≤ 1 := by decide +kernel
  exact this _ hg _ hd

theorem somePrices_equilibrium : Equilibrium priceStudy 0 (ofVars priceAnswer) somePrices := by
  have h : ∀ p ∈ priceStudy.networks, ∀ q ∈ p.2.nodes, ∀ t < priceStudy.horizon,
      (∀ c ∈ q.2.consumptions.zipIdx, Best (val c.1.cost 0 t - somePrices.node p.1 q.1 t)
        ((ofVars priceAnswer).lol p.1 q.1 c.2 t) (val c.1.quantity 0 t)) ∧
      (∀ c ∈ q.2.productions.zipIdx, Best (val c.1.cost 0 t - somePrices.node p.1 q.1 t)
        ((ofVars priceAnswer).prod p.1 q.1 c.2 t) (val c.1.quantity 0 t)) ∧
      (∀ c ∈ q.2.links.zipIdx, Best (val c.1.cost 0 t + somePrices.node p.1 q.1 t - somePrices.node p.1 c.1.dest t)
        ((ofVars priceAnswer).link p.1 q.1 c.2 t) (val c.1.quantity 0 t)) ∧
      (∀ c ∈ q.2.storages.zipIdx,
        Best (val c.1.cost 0 t + somePrices.stored p.1 q.1 c.2 t - somePrices.storedNext priceStudy.horizon p.1 q.1 c.2 t)
          ((ofVars priceAnswer).cap p.1 q.1 c.2 t) (val c.1.capacity 0 t) ∧
        Best (somePrices.node p.1 q.1 t - val c.1.eff 0 t * somePrices.stored p.1 q.1 c.2 t)
          ((ofVars priceAnswer).fin p.1 q.1 c.2 t) (val c.1.flowIn 0 t) ∧
        Best (somePrices.stored p.1 q.1 c.2 t - somePrices.node p.1 q.1 t)
          ((ofVars priceAnswer).fout p.1 q.1 c.2 t) (val c.1.flowOut 0 t)) := by decide +kernel
  have h' : ∀ p ∈ priceStudy.converters, ∀ t < priceStudy.horizon, (∀ q ∈ p.2.srcRatios,
      Best (somePrices.node (srcPair q.1).1 (srcPair q.1).2 t - val q.2 0 t * somePrices.used p.1 (srcPair q.1) t)
        ((ofVars priceAnswer).convSrc p.1 (srcPair q.1) t) (fval p.2.max 0 t / val q.2 0 t) ∧ val q.2 0 t ≠ 0) ∧
      Best (fval p.2.cost 0 t + (sumL p.2.srcRatios fun q => somePrices.used p.1 (srcPair q.1) t) -
        somePrices.node p.2.destNetwork p.2.destNode t) ((ofVars priceAnswer).convDest p.1 t) (fval p.2.max 0 t) := by
    decide +kernel
  refine ⟨?_, ?_, ?_, ?_, ?_, ?_, ?_, ?_⟩
  · rintro g d n ⟨net, hg, hd⟩ i c hc t ht
    exact (h _ hg _ hd t ht).1 (c, i) (mem_zipIdx_iff.mpr hc)
  · rintro g d n ⟨net, hg, hd⟩ i c hc t ht
    exact (h _ hg _ hd t ht).2.1 (c, i) (mem_zipIdx_iff.mpr hc)
  · rintro g d n ⟨net, hg, hd⟩ i c hc t ht
    exact (h _ hg _ hd t ht).2.2.1 (c, i) (mem_zipIdx_iff.mpr hc)
  · rintro g d n ⟨net, hg, hd⟩ i c hc t ht
    exact ((h _ hg _ hd t ht).2.2.2 (c, i) (mem_zipIdx_iff.mpr hc)).1
  · rintro g d n ⟨net, hg, hd⟩ i c hc t ht
    exact ((h _ hg _ hd t ht).2.2.2 (c, i) (mem_zipIdx_iff.mpr hc)).2.1
  · rintro g d n ⟨net, hg, hd⟩ i c hc t ht
    exact ((h _ hg _ hd t ht).2.2.2 (c, i) (mem_zipIdx_iff.mpr hc)).2.2
  · intro p hp g d r hr t ht
    exact ⟨fun _ => ((h' p hp t ht).1 _ hr).1, fun h0 => absurd h0 ((h' p hp t ht).1 _ hr).2⟩
  · intro p hp t ht
    exact (h' p hp t ht).2

/-- the prices prove that the answer is optimal (C75) -/
theorem priceAnswer_optimal : Answers (fun _ => priceAnswer) priceStudy 0 Cmd.Optimal := by
  intro steps log h
  have e : log = fullLog priceStudy 0 := by
    rw [Ready.build priceStudy_ready (by decide +kernel)] at h
    cases h
    rfl
  have hf : Cmd.Feasible log priceAnswer := by
    rw [logOf_eq h]
    exact Cmd.feasible_of_check (by decide +kernel)
  refine ⟨hf, fun y hy => ?_⟩
  have hi := Built.inv priceStudy_ready.built
  rw [e] at hf hy ⊢
  rw [objective_eq hi, objective_eq hi]
  exact C75_certificate priceStudy_ready
    (feasible_of_code priceStudy_noSelf priceStudy_one ((feasible_iff hi 0 _).mp hf)) somePrices_equilibrium
    (feasible_of_code priceStudy_noSelf priceStudy_one ((feasible_iff hi 0 _).mp hy))

def priceResult : Result := resultAll priceStudy (valsOf (fun _ => priceAnswer) priceStudy) ⟨[], [], 0, 0⟩

theorem priceStudy_a : HasNode priceStudy "elec" "a" (inNode priceStudy "elec" "a") := hasNode_inNode (by decide +kernel)

def numOf (q : ℚ) : NumVal := ⟨.scalar q, 2, 1⟩

theorem priceStudy_spare : CanProduce priceStudy 0 (dispatchOf priceStudy priceResult 0) "elec" "a" 0 20 :=
  ⟨_, 0, ⟨"nuke", numOf 20, numOf 15⟩, priceStudy_a, by decide +kernel, by decide +kernel, by decide +kernel⟩

theorem priceStudy_way : Reaches priceStudy 0 (dispatchOf priceStudy priceResult 0) "elec" 0 "a" "b" 1 := by
  have := Reaches.more (s := priceStudy) (k := 0) (D := dispatchOf priceStudy priceResult 0) (g := "elec") (t := 0) (i := 0)
    (l := ⟨"b", numOf 4, numOf 1⟩) priceStudy_a (by decide +kernel) (by decide +kernel) (.here "b")
  have e : val (numOf 1) 0 0 + 0 = (1 : ℚ) := by decide +kernel
  rwa [e] at this

theorem priceStudy_b : WouldSave priceStudy 0 (dispatchOf priceStudy priceResult 0) "elec" "b" 0 15 :=
  .inl ⟨inNode priceStudy "elec" "b", 0, ⟨"fuel", numOf 15, numOf 4⟩, hasNode_inNode (by decide +kernel), by decide +kernel,
    by decide +kernel, by decide +kernel⟩

theorem priceStudy_solved : solveLp (fun _ => priceAnswer) ⟨[], [], 0, 0⟩ priceStudy = .ok priceResult :=
  Ready.solve priceStudy_ready _ _

/-- C76: it would be useless to produce at `a` what is produced at `b` for 15 ... -/
example : (15 : ℚ) ≤ 20 + 1 :=
  C76 priceStudy_ready priceStudy_noSelf (by decide +kernel) priceStudy_solved priceAnswer_optimal (by decide +kernel)
    priceStudy_spare priceStudy_way priceStudy_b

/-- ... or to keep energy from one step to the next ... -/
example : val (numOf (1 / 2)) 0 0 * (20 - holding 0 ⟨"cell", numOf 8, numOf 2, numOf 2, numOf 1, 0, numOf (1 / 2)⟩ 0 1) ≤ 20 :=
  C76_storage priceStudy_ready priceStudy_noSelf (by decide +kernel) priceStudy_solved priceAnswer_optimal priceStudy_a (i := 0)
    (st := ⟨"cell", numOf 8, numOf 2, numOf 2, numOf 1, 0, numOf (1 / 2)⟩) (by decide +kernel) (t := 0) (m := 1)
    (by decide +kernel) (by decide +kernel) (by decide +kernel) (by decide +kernel) (by decide +kernel)
    priceStudy_spare
    (.inl ⟨_, 0, ⟨"nuke", numOf 20, numOf 15⟩, priceStudy_a, by decide +kernel, by decide +kernel, by decide +kernel⟩)

def priceConv : Converter := ⟨"conv", [(["gas", "g"], numOf (1 / 2))], "elec", "b", .val (numOf 2), .val (numOf 3)⟩

/-- ... or to use the converter -/
example : (15 : ℚ) ≤ fval priceConv.cost 0 0 + sumL priceConv.srcRatios fun q => 12 / val q.2 0 0 :=
  C76_converter (p := ("conv", priceConv)) (u := fun _ => 12) priceStudy_ready priceStudy_noSelf (by decide +kernel)
    priceStudy_solved priceAnswer_optimal (by decide +kernel) (t := 0) (by decide +kernel) (by decide +kernel)
    (by decide +kernel) (by
      intro g d h
      have : g = "gas" ∧ d = "g" := by simpa [priceConv] using h
      rw [this.1, this.2]
      exact ⟨inNode priceStudy "gas" "g", 0, ⟨"well", numOf 12, numOf 10⟩, hasNode_inNode (by decide +kernel),
        by decide +kernel, by decide +kernel, by decide +kernel⟩)
    priceStudy_b

/-! ### The theorems applied to concrete cases -/

example : ∃ P, Equilibrium priceStudy 0 (dispatchOf priceStudy priceResult 0) P :=
  C75 priceStudy_ready priceStudy_noSelf (by decide +kernel) priceStudy_solved priceAnswer_optimal

theorem priceAnswer_feasible : Spec.Feasible priceStudy 0 (ofVars priceAnswer) := by
  have hf : Cmd.Feasible (fullLog priceStudy 0) priceAnswer := Cmd.feasible_of_check (by decide +kernel)
  exact feasible_of_code priceStudy_noSelf priceStudy_one ((feasible_iff (Built.inv priceStudy_ready.built) 0 _).mp hf)

example : ∀ D, Spec.Feasible priceStudy 0 D → 244 ≤ cost priceStudy 0 D := by
  have h := (C75_iff priceStudy_ready priceStudy_noSelf priceStudy_one priceAnswer_feasible).mpr ⟨_, somePrices_equilibrium⟩
  have e : cost priceStudy 0 (ofVars priceAnswer) = 244 := by decide +kernel
  rwa [e] at h

example {D : Dispatch} (hD : Spec.Feasible priceStudy 0 D) : cost priceStudy 0 (ofVars priceAnswer) ≤ cost priceStudy 0 D :=
  C75_certificate priceStudy_ready priceAnswer_feasible somePrices_equilibrium hD

/-- two nodes with links both ways -/
def loopStudy : Study := ((World.start 1 1).run [.studyNetwork "elec", .netNode 0 "a", .netNode 0 "b",
  .netLink 0 "a" "b" (.num 3) (.num 5), .netLink 0 "b" "a" (.num (-1)) (.num 5)]).study

theorem loop_ready : Ready loopStudy where
  built := ⟨1, 1, _, by
    intro c hc
    simp only [List.mem_cons, List.not_mem_nil, or_false] at hc
    rcases hc with rfl | rfl | rfl | rfl | rfl <;> simp [RawCall], rfl⟩
  complete := by unfold CompleteConverters; decide +kernel
  ratios := RatiosNonzero.usable (by unfold RatiosNonzero; decide +kernel)
  clean := cleanSources_of (by decide +kernel)

theorem loop_noSelf : NoSelfLink loopStudy := by
  rintro g d n ⟨net, hg, hd⟩
  have : ∀ p ∈ loopStudy.networks, ∀ q ∈ p.2.nodes, ∀ l ∈ q.2.links, l.dest ≠ q.1 := by decide +kernel
  exact this _ hg _ hd

theorem loop_optimal : Answers (fun _ _ => 0) loopStudy 0 Cmd.Optimal := by
  intro steps log h
  obtain rfl := logOf_eq h
  refine ⟨Cmd.feasible_of_check (by decide +kernel), ?_⟩
  intro y hy
  have b1 := hy.1.1 (.link 0 "elec" "a" 0) 0 5 (by decide +kernel)
  have r1 := value_ge hy (r := .adeq 0 "elec" "a") (lo := 0) (hi := 0)
    (d := [(.link 0 "elec" "a" 0, -1), (.link 0 "elec" "b" 0, 1)]) (by decide +kernel) (by decide +kernel)
  have e : Cmd.objCoefs (logOf loopStudy 0) = [(.link 0 "elec" "a" 0, 3), (.link 0 "elec" "b" 0, -1)] := by decide +kernel
  simp only [Cmd.value, List.map_cons, List.map_nil, List.sum_cons, List.sum_nil] at r1
  unfold Cmd.objective
  rw [e]
  simp [Cmd.value]
  linarith [r1.1, r1.2, b1.1]

/-- going round costs 3 - 1, which is not negative -/
example : (0 : ℚ) ≤ 3 + (-1 + 0) := by
  have hr : solveLp (fun _ _ => 0) ⟨[], [], 0, 0⟩ loopStudy = .ok _ := Ready.solve loop_ready _ _
  have w := Reaches.more (s := loopStudy) (k := 0) (D := dispatchOf loopStudy (resultAll loopStudy (valsOf (fun _ _ => 0) loopStudy)
      ⟨[], [], 0, 0⟩) 0) (g := "elec") (t := 0) (d := "a") (i := 0) (l := ⟨"b", ⟨.scalar 5, 1, 1⟩, ⟨.scalar 3, 1, 1⟩⟩)
    (hasNode_inNode (by decide +kernel)) (by decide +kernel) (by decide +kernel)
    (Reaches.more (g := "elec") (t := 0) (d := "b") (i := 0) (l := ⟨"a", ⟨.scalar 5, 1, 1⟩, ⟨.scalar (-1), 1, 1⟩⟩)
      (hasNode_inNode (by decide +kernel)) (by decide +kernel) (by decide +kernel) (.here "a"))
  exact C76_loops loop_ready loop_noSelf (by decide +kernel) hr loop_optimal (by decide +kernel) w

end Props

end Hadar
