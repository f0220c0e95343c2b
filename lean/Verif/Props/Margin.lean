import Verif.Proofs.Margin
import Verif.Props.Prices

/-!
# C98: optimal answers may only differ on elements that break even
-/

namespace Hadar.Props

open Hadar Spec

variable {s : Study} {solver solver' : Solver} {b b' : Benchmark} {r r' : Result} {k : ℕ} {P : Prices}

/-- C98: prices of one optimal answer are prices of all, and any two optimal answers do the same with every element that would earn or
lose with these prices -/
theorem C98 (hs : Ready s) (hself : NoSelfLink s) (h1 : OneStorage s) (hk : k < s.nbScn)
    (hr : solveLp solver b s = .ok r) (ha : Answers solver s k Cmd.Optimal)
    (hr' : solveLp solver' b' s = .ok r') (ha' : Answers solver' s k Cmd.Optimal)
    (he : Equilibrium s k (dispatchOf s r k) P) :
    Equilibrium s k (dispatchOf s r' k) P ∧ AgreeOffMargin s k P (dispatchOf s r k) (dispatchOf s r' k) := by
  obtain rfl := Ready.result hs hr
  obtain rfl := Ready.result hs hr'
  have hi := Built.inv hs.built
  have ho := optimal_result hi hk _ b (Ready.answer hs hk ha)
  have ho' := optimal_result hi hk _ b' (Ready.answer hs hk ha')
  have he' := equilibrium_of_cost hi (Ready.dest hs) (feasible_of_code hself h1 ho.1) he (feasible_of_code hself h1 ho'.1)
    (le_antisymm (ho'.2 _ ho.1) (ho.2 _ ho'.1))
  exact ⟨he', agree_of_equilibrium he he'⟩

theorem worth_price {D : Dispatch} (he : Equilibrium s k D P) {g d : String} {t : ℕ} (ht : t < s.horizon) {c : ℚ}
    (h : Worth s k D g d t c) : P.node g d t = c := by
  rcases h with ⟨n, i, p, hn, hp, h0, h1, rfl⟩ | ⟨n, i, p, hn, hp, h0, h1, rfl⟩
  · have hb := he.productions g d n hn i p hp t ht
    rcases lt_trichotomy (val p.cost k t - P.node g d t) 0 with h | h | h
    · exact absurd (hb.2 h) (ne_of_lt h1)
    · linarith
    · exact absurd (hb.1 h) (ne_of_gt h0)
  · have hb := he.consumptions g d n hn i p hp t ht
    rcases lt_trichotomy (val p.cost k t - P.node g d t) 0 with h | h | h
    · exact absurd (hb.2 h) (ne_of_lt h1)
    · linarith
    · exact absurd (hb.1 h) (ne_of_gt h0)

/-- C98: where energy is worth `c`, optimal answers may only differ on productions and consumptions that cost `c`, and on the links to
nodes where energy is worth something else they carry the same unless the difference is the cost of the link -/
theorem C98_worth (hs : Ready s) (hself : NoSelfLink s) (h1 : OneStorage s) (hk : k < s.nbScn)
    (hr : solveLp solver b s = .ok r) (ha : Answers solver s k Cmd.Optimal)
    (hr' : solveLp solver' b' s = .ok r') (ha' : Answers solver' s k Cmd.Optimal) {g d : String} {n : InputNode}
    (hn : HasNode s g d n) {t : ℕ} (ht : t < s.horizon) {c : ℚ} (hw : Worth s k (dispatchOf s r k) g d t c) :
    (∀ i p, n.productions[i]? = some p → val p.cost k t ≠ c →
      (dispatchOf s r k).prod g d i t = (dispatchOf s r' k).prod g d i t) ∧
    (∀ i p, n.consumptions[i]? = some p → val p.cost k t ≠ c →
      (dispatchOf s r k).lol g d i t = (dispatchOf s r' k).lol g d i t) ∧
    ∀ i l, n.links[i]? = some l → ∀ c', Worth s k (dispatchOf s r k) g l.dest t c' → c + val l.cost k t ≠ c' →
      (dispatchOf s r k).link g d i t = (dispatchOf s r' k).link g d i t := by
  obtain ⟨P, he⟩ := C75 hs hself hk hr ha
  have h := (C98 hs hself h1 hk hr ha hr' ha' he).2
  have hp := worth_price he ht hw
  refine ⟨fun i p hi hne => h.productions g d n hn i p hi t ht (by rwa [hp]),
    fun i p hi hne => h.consumptions g d n hn i p hi t ht (by rwa [hp]), fun i l hi c' hw' hne => h.links g d n hn i l hi t ht ?_⟩
  rwa [hp, worth_price he ht hw']

/-! ### A concrete case: two plants at the same cost -/

def tiedStudy : Study := ((World.start 1 1).run [.studyNetwork "elec", .netNode 0 "a",
  .nodeConsumption 0 "load" (.num 100) (.num 6), .nodeProduction 0 "wind" (.num 1) (.num 3),
  .nodeProduction 0 "gas" (.num 20) (.num 5), .nodeProduction 0 "coal" (.num 20) (.num 5),
  .nodeProduction 0 "fuel" (.num 70) (.num 5)]).study

theorem tied_ready : Ready tiedStudy where
  built := ⟨1, 1, _, rawCalls_of (by decide +kernel), rfl⟩
  complete := by unfold CompleteConverters; decide +kernel
  ratios := RatiosNonzero.usable (by unfold RatiosNonzero; decide +kernel)
  clean := cleanSources_of (by decide +kernel)

theorem tied_noSelf : NoSelfLink tiedStudy := by
  rintro g d n ⟨net, hg, hd⟩
  have : ∀ p ∈ tiedStudy.networks, ∀ q ∈ p.2.nodes, ∀ l ∈ q.2.links, l.dest ≠ q.1 := by decide +kernel
  exact this _ hg _ hd

theorem tied_one : OneStorage tiedStudy := by
  rintro g d n ⟨net, hg, hd⟩
  have : ∀ p ∈ tiedStudy.networks, ∀ q ∈ p.2.nodes, q.2.storages.length ≤ 1 := by decide +kernel
  exact this _ hg _ hd

/-- `x` from gas, the rest from coal -/
def tiedAnswer (x : ℚ) : Var → ℚ
  | .prod _ _ _ 0 => 3
  | .prod _ _ _ 1 => x
  | .prod _ _ _ 2 => 3 - x
  | _ => 0

def tiedPrices : Prices where
  node _ _ _ := 20
  stored _ _ _ _ := 0
  used _ _ _ := 0

/-- the study as data -/
theorem tied_nodes : ∀ p ∈ tiedStudy.networks, ∀ q ∈ p.2.nodes, p.1 = "elec" ∧ q.1 = "a" ∧
    q.2 = ⟨[⟨⟨.scalar 100, 1, 1⟩, ⟨.scalar 6, 1, 1⟩, "load"⟩],
      [⟨"wind", ⟨.scalar 1, 1, 1⟩, ⟨.scalar 3, 1, 1⟩⟩, ⟨"gas", ⟨.scalar 20, 1, 1⟩, ⟨.scalar 5, 1, 1⟩⟩,
        ⟨"coal", ⟨.scalar 20, 1, 1⟩, ⟨.scalar 5, 1, 1⟩⟩, ⟨"fuel", ⟨.scalar 70, 1, 1⟩, ⟨.scalar 5, 1, 1⟩⟩], [], []⟩ := by
  decide +kernel

theorem tied_equilibrium {x : ℚ} (hx : x = 1 ∨ x = 2) : Equilibrium tiedStudy 0 (ofVars (tiedAnswer x)) tiedPrices := by
  have h : ∀ p ∈ tiedStudy.networks, ∀ q ∈ p.2.nodes, ∀ t < tiedStudy.horizon,
      (∀ c ∈ q.2.consumptions.zipIdx, Best (val c.1.cost 0 t - tiedPrices.node p.1 q.1 t)
        ((ofVars (tiedAnswer x)).lol p.1 q.1 c.2 t) (val c.1.quantity 0 t)) ∧
      (∀ c ∈ q.2.productions.zipIdx, Best (val c.1.cost 0 t - tiedPrices.node p.1 q.1 t)
        ((ofVars (tiedAnswer x)).prod p.1 q.1 c.2 t) (val c.1.quantity 0 t)) := by
    rcases hx with rfl | rfl <;> decide +kernel
  have hst : ∀ {g d n} {i : ℕ} {c : Storage}, HasNode tiedStudy g d n → n.storages[i]? ≠ some c := by
    rintro g d n i c ⟨net, hg, hd⟩
    have e : n = _ := (tied_nodes _ hg _ hd).2.2
    rw [e]
    simp
  have hcv : ∀ p, p ∉ tiedStudy.converters := by
    have : tiedStudy.converters = [] := by decide +kernel
    simp [this]
  refine ⟨?_, ?_, ?_, ?_, ?_, ?_, ?_, ?_⟩
  · rintro g d n ⟨net, hg, hd⟩ i c hc t ht
    exact (h _ hg _ hd t ht).1 (c, i) (mem_zipIdx_iff.mpr hc)
  · rintro g d n ⟨net, hg, hd⟩ i c hc t ht
    exact (h _ hg _ hd t ht).2 (c, i) (mem_zipIdx_iff.mpr hc)
  · rintro g d n ⟨net, hg, hd⟩ i c hc t ht
    have e : n = _ := (tied_nodes _ hg _ hd).2.2
    rw [e] at hc
    simp at hc
  · exact fun g d n hn i c hc => absurd hc (hst hn)
  · exact fun g d n hn i c hc => absurd hc (hst hn)
  · exact fun g d n hn i c hc => absurd hc (hst hn)
  · exact fun p hp => absurd hp (hcv p)
  · exact fun p hp => absurd hp (hcv p)

theorem tiedAnswer_optimal {x : ℚ} (hx : x = 1 ∨ x = 2) : Answers (fun _ => tiedAnswer x) tiedStudy 0 Cmd.Optimal := by
  intro steps log h
  have e : log = fullLog tiedStudy 0 := by
    rw [Ready.build tied_ready (by decide +kernel)] at h
    cases h
    rfl
  have hf : Cmd.Feasible log (tiedAnswer x) := by
    rw [logOf_eq h]
    rcases hx with rfl | rfl <;> exact Cmd.feasible_of_check (by decide +kernel)
  refine ⟨hf, fun y hy => ?_⟩
  have hi := Built.inv tied_ready.built
  rw [e] at hf hy ⊢
  rw [objective_eq hi, objective_eq hi]
  exact C75_certificate tied_ready
    (feasible_of_code tied_noSelf tied_one ((feasible_iff hi 0 _).mp hf)) (tied_equilibrium hx)
    (feasible_of_code tied_noSelf tied_one ((feasible_iff hi 0 _).mp hy))

def tiedResult (x : ℚ) : Result := resultAll tiedStudy (valsOf (fun _ => tiedAnswer x) tiedStudy) ⟨[], [], 0, 0⟩

theorem tied_node : HasNode tiedStudy "elec" "a" (inNode tiedStudy "elec" "a") := hasNode_inNode (by decide +kernel)

theorem tied_worth : Worth tiedStudy 0 (dispatchOf tiedStudy (tiedResult 1) 0) "elec" "a" 0 20 :=
  .inl ⟨_, 1, ⟨"gas", ⟨.scalar 20, 1, 1⟩, ⟨.scalar 5, 1, 1⟩⟩, tied_node, by decide +kernel, by decide +kernel, by decide +kernel,
    by decide +kernel⟩

/-- two optimal answers that differ: 1 or 2 of gas ... -/
example : (dispatchOf tiedStudy (tiedResult 1) 0).prod "elec" "a" 1 0 = 1 ∧
    (dispatchOf tiedStudy (tiedResult 2) 0).prod "elec" "a" 1 0 = 2 := by decide +kernel

/-- ... but not on wind, which costs 1 -/
example : (dispatchOf tiedStudy (tiedResult 1) 0).prod "elec" "a" 0 0 = (dispatchOf tiedStudy (tiedResult 2) 0).prod "elec" "a" 0 0 :=
  (C98_worth tied_ready tied_noSelf tied_one (by decide +kernel) (Ready.solve tied_ready _ _) (tiedAnswer_optimal (.inl rfl))
    (Ready.solve tied_ready _ _) (tiedAnswer_optimal (.inr rfl)) tied_node (by decide +kernel) tied_worth).1 0
    ⟨"wind", ⟨.scalar 1, 1, 1⟩, ⟨.scalar 3, 1, 1⟩⟩ (by decide +kernel) (by decide +kernel)

/-! ### The theorems applied to concrete cases -/

/-- prices that explain one of the two optimal answers explain the other one -/
example : ∃ P, Equilibrium tiedStudy 0 (dispatchOf tiedStudy (tiedResult 1) 0) P ∧
    Equilibrium tiedStudy 0 (dispatchOf tiedStudy (tiedResult 2) 0) P := by
  obtain ⟨P, hP⟩ := C75 tied_ready tied_noSelf (by decide +kernel)
    (Ready.solve tied_ready (fun _ => tiedAnswer 1) ⟨[], [], 0, 0⟩) (tiedAnswer_optimal (.inl rfl))
  exact ⟨P, hP, (C98 tied_ready tied_noSelf tied_one (by decide +kernel) (Ready.solve tied_ready _ _) (tiedAnswer_optimal (.inl rfl))
    (Ready.solve tied_ready _ _) (tiedAnswer_optimal (.inr rfl)) hP).1⟩

end Hadar.Props
