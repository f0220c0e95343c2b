import Verif.Proofs.Cut
import Verif.Proofs.Order
import Verif.Props.Adequacy
import Verif.Props.Prices

/-!
# C97: the loss of load is the greatest deficit of a region
-/

namespace Hadar

open Spec

variable {s : Study} {k : ℕ} {D : Dispatch} {P : Prices}

theorem length_nodesOf (s : Study) : (nodesOf s).length = nbNodes s := by
  unfold nodesOf nbNodes
  induction s.networks with
  | nil => rfl
  | cons p l ih => simp [List.flatMap_cons, ih]

/-- a region which is short of exactly what is lost -/
theorem exists_region (hi : StudyInv s) (ho : OnlyLinks s) (hb : Balanced s k D) (hB : Bounds s k D) (he : Equilibrium s k D P)
    {u c v : ℚ} (hw : LossIsWorst s k u c v) {t : ℕ} (ht : t < s.horizon) :
    ∃ S, unserved s D t = deficit s k S t := by
  have hconv : s.converters = [] := ho.1
  by_cases hlost : ∃ g d n, HasNode s g d n ∧ ∃ i c, n.consumptions[i]? = some c ∧ D.lol g d i t ≠ 0
  · obtain ⟨g₀, d₀, n₀, hn₀, i₀, c₀, hc₀, hl₀⟩ := hlost
    have hv₀ : v ≤ P.node g₀ d₀ t := by
      by_contra hlt
      have := hw.loss g₀ d₀ n₀ hn₀ c₀ (List.mem_of_getElem? hc₀) t ht
      exact hl₀ ((he.consumptions g₀ d₀ n₀ hn₀ i₀ c₀ hc₀ t ht).1 (by linarith))
    obtain ⟨θ, h1, h2, h3⟩ := exists_gap hw.nonneg ((nodesOf s).map fun a => P.node a.1.1 a.1.2 t) (nbNodes s - 1) v (by
      have : (((nodesOf s).map fun a => P.node a.1.1 a.1.2 t).filter fun p => decide (p < v)).length <
          ((nodesOf s).map fun a => P.node a.1.1 a.1.2 t).length := by
        apply List.length_filter_lt_length_iff_exists.mpr
        exact ⟨_, List.mem_map_of_mem (f := fun a : (String × String) × InputNode => P.node a.1.1 a.1.2 t) ((mem_nodesOf (a := ((g₀, d₀), n₀))).mpr hn₀), by simpa using hv₀⟩
      rw [List.length_map, length_nodesOf] at this
      omega)
    have hN : 1 ≤ nbNodes s := by
      rw [← length_nodesOf]
      exact List.length_pos_of_mem ((mem_nodesOf (a := ((g₀, d₀), n₀))).mpr hn₀)
    have hθ : u < θ := by
      have : ((nbNodes s - 1 : ℕ) : ℚ) = (nbNodes s : ℚ) - 1 := by push_cast [hN]; ring
      rw [this] at h1
      have := hw.worst
      linarith
    have hgap : ∀ g d n, HasNode s g d n → P.node g d t < θ → P.node g d t + c < θ := fun g d n hn h =>
      h3 _ (List.mem_map_of_mem (f := fun a : (String × String) × InputNode => P.node a.1.1 a.1.2 t) ((mem_nodesOf (a := ((g, d), n))).mpr hn)) h
    refine ⟨fun g d => decide (θ ≤ P.node g d t), ?_⟩
    have hacc := region_account (F := fun g d => if θ ≤ P.node g d t then 1 else 0) hi (by simp [hconv]) hb ht
    have e1 : unserved s D t = sumN s fun g d n => (if θ ≤ P.node g d t then (1 : ℚ) else 0) *
        sumI n.consumptions fun _ i => D.lol g d i t := by
      refine sumN_congr (f := fun g d n => sumI n.consumptions fun _ i => D.lol g d i t) fun g d n hn => ?_
      split_ifs with h
      · rw [one_mul]
      · rw [zero_mul]
        rw [sumI_congr (g := fun _ _ => 0), sumI_zero]
        intro x i hx
        have := hw.loss g d n hn x (List.mem_of_getElem? hx) t ht
        exact (he.consumptions g d n hn i x hx t ht).1 (by linarith)
    rw [e1, hacc, deficit_links ho]
    simp only [hconv]
    have e0 : ∀ f : String × Converter → ℚ, sumL [] f = 0 := fun f => rfl
    rw [e0, e0, sub_zero, add_zero, ← sumN_add]
    refine sumN_congr fun g d n hn => ?_
    have hst := ho.2 g d n hn
    simp only [hst, decide_eq_true_eq]
    split_ifs with h
    · rw [one_mul]
      have a1 : (sumI n.productions fun _ i => D.prod g d i t) = sumI n.productions fun c _ => val c.quantity k t :=
        sumI_congr fun x i hx => (he.productions g d n hn i x hx t ht).2 (by
          have := hw.productions g d n hn x (List.mem_of_getElem? hx) t ht
          linarith)
      have a2 : (sumI n.links fun l i => ((1 : ℚ) - if θ ≤ P.node g l.dest t then 1 else 0) * D.link g d i t) = 0 := by
        rw [sumI_congr (g := fun _ _ => 0), sumI_zero]
        intro x i hx
        split_ifs with h'
        · simp
        · rw [sub_zero, one_mul]
          apply (he.links g d n hn i x hx t ht).1
          have := (hw.links g d n hn x (List.mem_of_getElem? hx) t ht).1
          linarith
      rw [a1, a2]
      simp [sumI]
    · rw [zero_mul, zero_add, ← sumI_neg']
      refine sumI_congr fun x i hx => ?_
      split_ifs with h'
      · rw [(he.links g d n hn i x hx t ht).2 (by
          have := (hw.links g d n hn x (List.mem_of_getElem? hx) t ht).2
          have := hgap g d n hn (by linarith)
          linarith)]
        ring
      · simp
  · push Not at hlost
    refine ⟨fun _ _ => false, ?_⟩
    have e1 : unserved s D t = 0 := by
      have : unserved s D t = sumN s fun _ _ _ => 0 := by
        refine sumN_congr (f := fun g d n => sumI n.consumptions fun _ i => D.lol g d i t) fun g d n hn => ?_
        rw [sumI_congr (g := fun _ _ => 0), sumI_zero]
        intro x i hx
        exact hlost g d n hn i x hx
      rw [this, sumN_zero]
    rw [e1, deficit_links ho]
    simp only [Bool.false_eq_true, if_false]
    have : (sumN s fun _ _ n => -sumI n.links fun _ _ => (0 : ℚ)) = sumN s fun _ _ _ => 0 :=
      sumN_congr (f := fun _ _ n => -sumI n.links fun _ _ => (0 : ℚ)) fun g d n _ => by rw [sumI_zero, neg_zero]
    rw [this, sumN_zero]

namespace Props

variable {solver : Solver} {b : Benchmark} {r : Result}

/-- C97: whatever the study and whatever the solver answers, as long as it meets the limits, at least the deficit of any region is lost,
and it is lost in that region -/
theorem C97_bound (hs : Ready s) (hself : NoSelfLink s) (hk : k < s.nbScn) (hr : solveLp solver b s = .ok r)
    (ha : Answers solver s k Cmd.Feasible) {t : ℕ} (ht : t < s.horizon) (S : Region) :
    deficit s k S t ≤ (total s fun g d n => if S g d then sumI n.consumptions fun _ i => (dispatchOf s r k).lol g d i t else 0) ∧
      deficit s k S t ≤ unserved s (dispatchOf s r k) t := by
  have hb := C19_balance_partial hs hself hr hk ha
  obtain rfl := Ready.result hs hr
  have hi := Built.inv hs.built
  have hf := (codeFeasible_iff hi hk _ b).mp (Ready.answer hs hk ha)
  have h := deficit_le_region hi (Ready.dest hs) hb hf.bounds S ht
  exact ⟨h, le_trans h (region_le_unserved hf.bounds S ht)⟩

/-- C97: the loss of load of a study without storage or converter is the greatest deficit of a region, where losing load costs more than
producing and carrying energy through all the nodes -/
theorem C97 (hs : Ready s) (hself : NoSelfLink s) (hk : k < s.nbScn) (hr : solveLp solver b s = .ok r)
    (ha : Answers solver s k Cmd.Optimal) (ho : OnlyLinks s) {u c v : ℚ} (hw : LossIsWorst s k u c v) {t : ℕ} (ht : t < s.horizon) :
    IsGreatest {x | ∃ S, x = deficit s k S t} (unserved s (dispatchOf s r k) t) := by
  have ha' : Answers solver s k Cmd.Feasible := fun _ _ h => (ha _ _ h).1
  refine ⟨?_, fun x ⟨S, hS⟩ => hS ▸ (C97_bound hs hself hk hr ha' ht S).2⟩
  have hb := C19_balance_partial hs hself hr hk ha'
  obtain ⟨P, he⟩ := C75 hs hself hk hr ha
  obtain rfl := Ready.result hs hr
  have hi := Built.inv hs.built
  have hf := (codeFeasible_iff hi hk _ b).mp (Ready.answer hs hk ha')
  exact exists_region hi ho hb hf.bounds he hw ht

/-- C97: so no load is lost at a time exactly when no region lacks anything ... -/
theorem C97_adequate (hs : Ready s) (hself : NoSelfLink s) (hk : k < s.nbScn) (hr : solveLp solver b s = .ok r)
    (ha : Answers solver s k Cmd.Optimal) (ho : OnlyLinks s) {u c v : ℚ} (hw : LossIsWorst s k u c v) {t : ℕ} (ht : t < s.horizon) :
    (∀ g d n, HasNode s g d n → ∀ i x, n.consumptions[i]? = some x → (dispatchOf s r k).lol g d i t = 0) ↔
      ∀ S, deficit s k S t ≤ 0 := by
  obtain ⟨⟨S, hS⟩, hmax⟩ := C97 hs hself hk hr ha ho hw ht
  constructor
  · intro h S'
    have h0 : unserved s (dispatchOf s r k) t = sumN s fun _ _ _ => 0 := by
      refine sumN_congr (f := fun g d n => sumI n.consumptions fun _ i => (dispatchOf s r k).lol g d i t) fun g d n hn => ?_
      rw [sumI_congr (g := fun _ _ => 0), sumI_zero]
      exact fun x i hx => h g d n hn i x hx
    rw [sumN_zero] at h0
    rw [← h0]
    exact hmax ⟨S', rfl⟩
  · intro h g d n hn i x hx
    have h1 := h S
    rw [← hS] at h1
    obtain rfl := Ready.result hs hr
    have hi := Built.inv hs.built
    have hf := (codeFeasible_iff hi hk _ b).mp (Ready.answer hs hk fun _ _ h => (ha _ _ h).1)
    have h2 := lol_le_unserved hf.bounds ht hn hx
    exact le_antisymm (le_trans h2 h1) (hf.bounds.consumptions g d n hn i x hx t ht).1

/-- C97: ... and no way of meeting the limits of the study loses less -/
theorem C97_least (hs : Ready s) (hself : NoSelfLink s) (hk : k < s.nbScn) (hr : solveLp solver b s = .ok r)
    (ha : Answers solver s k Cmd.Optimal) (ho : OnlyLinks s) {u c v : ℚ} (hw : LossIsWorst s k u c v) {t : ℕ} (ht : t < s.horizon)
    {D' : Dispatch} (hD' : Spec.Feasible s k D') : unserved s (dispatchOf s r k) t ≤ unserved s D' t := by
  obtain ⟨⟨S, hS⟩, -⟩ := C97 hs hself hk hr ha ho hw ht
  rw [hS]
  exact le_trans (deficit_le_region (Built.inv hs.built) (Ready.dest hs) hD'.balanced hD'.bounds S ht)
    (region_le_unserved hD'.bounds S ht)

/-- C97: a study with more means and no more needs, at any costs, never loses more load; the study it is compared with may have
storages and converters, and any costs and any feasible answer -/
theorem C97_more {s' : Study} {k' : ℕ} {solver' : Solver} {b' : Benchmark} {r' : Result} (hs : Ready s) (hself : NoSelfLink s)
    (hk : k < s.nbScn) (hr : solveLp solver b s = .ok r) (ha : Answers solver s k Cmd.Feasible) (hs' : Ready s')
    (hself' : NoSelfLink s') (hk' : k' < s'.nbScn) (hr' : solveLp solver' b' s' = .ok r') (ha' : Answers solver' s' k' Cmd.Optimal)
    (ho : OnlyLinks s') {u c v : ℚ} (hw : LossIsWorst s' k' u c v) (hm : BetterSupplied s k s' k') {t : ℕ} (ht : t < s.horizon) :
    unserved s' (dispatchOf s' r' k') t ≤ unserved s (dispatchOf s r k) t := by
  obtain ⟨⟨S, hS⟩, -⟩ := C97 hs' hself' hk' hr' ha' ho hw (hm.horizon ▸ ht)
  rw [hS]
  exact le_trans (deficit_better hm S ht) (C97_bound hs hself hk hr ha ht S).2

/-- C97: and costs do not matter for what is lost, as long as losing load is the worst -/
theorem C97_costs {s' : Study} {k' : ℕ} {solver' : Solver} {b' : Benchmark} {r' : Result} (hs : Ready s) (hself : NoSelfLink s)
    (hk : k < s.nbScn) (hr : solveLp solver b s = .ok r) (ha : Answers solver s k Cmd.Optimal) (ho : OnlyLinks s)
    {u c v : ℚ} (hw : LossIsWorst s k u c v) (hs' : Ready s')
    (hk' : k' < s'.nbScn) (hr' : solveLp solver' b' s' = .ok r') (ha' : Answers solver' s' k' Cmd.Optimal)
    {u' c' v' : ℚ} (hw' : LossIsWorst s' k' u' c' v') (hm : SameMeans s k s' k') {t : ℕ} (ht : t < s.horizon) :
    unserved s' (dispatchOf s' r' k') t = unserved s (dispatchOf s r k) t := by
  have hself' : NoSelfLink s' := NoSelfLink.compared hm hself
  have ho' : OnlyLinks s' := by
    refine ⟨?_, fun g d n' hn' => ?_⟩
    · have := hm.converters
      rw [ho.1] at this
      exact List.forall₂_nil_left_iff.1 this
    · obtain ⟨n, hn, hN⟩ := Alike.node hm hn'
      have := hN.storages
      rw [ho.2 g d n hn] at this
      exact List.forall₂_nil_left_iff.1 this
  refine le_antisymm
    (C97_more hs hself hk hr (fun _ _ h => (ha _ _ h).1) hs' hself' hk' hr' ha' ho' hw' ?_ ht)
    (C97_more hs' hself' hk' hr' (fun _ _ h => (ha' _ _ h).1) hs hself hk hr ha ho hw ?_ (hm.horizon ▸ ht))
  · exact Compared.imp (fun _ _ _ => trivial) (fun _ _ h => h.le) (fun _ _ h => h.ge) hm
  · exact Compared.imp (fun _ _ _ => trivial) (fun _ _ h => h.ge) (fun _ _ h => h.le) (Compared.flip hm)

/-! ### A concrete case: two towns short of energy while wind is left over -/

def shortStudy : Study := ((World.start 1 1).run [.studyNetwork "elec", .netNode 0 "a",
  .nodeProduction 0 "wind" (.num 1) (.num 20), .netNode 0 "b", .nodeConsumption 0 "load" (.num 1000) (.num 10),
  .netNode 0 "c", .nodeConsumption 0 "load" (.num 1000) (.num 8), .nodeProduction 0 "gas" (.num 50) (.num 2),
  .netLink 0 "a" "b" (.num 2) (.num 6), .netLink 0 "b" "c" (.num 1) (.num 3), .netLink 0 "a" "c" (.num 2) (.num 4)]).study

theorem short_ready : Ready shortStudy where
  built := ⟨1, 1, _, rawCalls_of (by decide +kernel), rfl⟩
  complete := by unfold CompleteConverters; decide +kernel
  ratios := RatiosNonzero.usable (by unfold RatiosNonzero; decide +kernel)
  clean := cleanSources_of (by decide +kernel)

theorem short_noSelf : NoSelfLink shortStudy := by
  rintro g d n ⟨net, hg, hd⟩
  have : ∀ p ∈ shortStudy.networks, ∀ q ∈ p.2.nodes, ∀ l ∈ q.2.links, l.dest ≠ q.1 := by decide +kernel
  exact this _ hg _ hd

theorem short_one : OneStorage shortStudy := by
  rintro g d n ⟨net, hg, hd⟩
  have : ∀ p ∈ shortStudy.networks, ∀ q ∈ p.2.nodes, q.2.storages.length ≤ 1 := by decide +kernel
  exact this _ hg _ hd

def shortAnswer : Var → ℚ
  | .prod _ "elec" "a" 0 => 10
  | .prod _ "elec" "c" 0 => 2
  | .link _ "elec" "a" 0 => 6
  | .link _ "elec" "a" 1 => 4
  | .lol _ "elec" "b" 0 => 4
  | .lol _ "elec" "c" 0 => 2
  | _ => 0

def shortPrices : Prices where
  node _ d _ := if d = "a" then 1 else 1000
  stored _ _ _ _ := 0
  used _ _ _ := 0

theorem short_onlyLinks : OnlyLinks shortStudy := by
  refine ⟨by decide +kernel, ?_⟩
  rintro g d n ⟨net, hg, hd⟩
  have : ∀ p ∈ shortStudy.networks, ∀ q ∈ p.2.nodes, q.2.storages = [] := by decide +kernel
  exact this _ hg _ hd

theorem shortPrices_equilibrium : Equilibrium shortStudy 0 (ofVars shortAnswer) shortPrices := by
  have h : ∀ p ∈ shortStudy.networks, ∀ q ∈ p.2.nodes, ∀ t < shortStudy.horizon,
      (∀ c ∈ q.2.consumptions.zipIdx, Best (val c.1.cost 0 t - shortPrices.node p.1 q.1 t)
        ((ofVars shortAnswer).lol p.1 q.1 c.2 t) (val c.1.quantity 0 t)) ∧
      (∀ c ∈ q.2.productions.zipIdx, Best (val c.1.cost 0 t - shortPrices.node p.1 q.1 t)
        ((ofVars shortAnswer).prod p.1 q.1 c.2 t) (val c.1.quantity 0 t)) ∧
      (∀ c ∈ q.2.links.zipIdx, Best (val c.1.cost 0 t + shortPrices.node p.1 q.1 t - shortPrices.node p.1 c.1.dest t)
        ((ofVars shortAnswer).link p.1 q.1 c.2 t) (val c.1.quantity 0 t)) := by decide +kernel
  have hst : ∀ {g d n} {i : ℕ} {c : Storage}, HasNode shortStudy g d n → n.storages[i]? ≠ some c := by
    intro g d n i c hn
    rw [short_onlyLinks.2 g d n hn]
    simp
  have hcv : ∀ p, p ∉ shortStudy.converters := by
    rw [short_onlyLinks.1]
    simp
  refine ⟨?_, ?_, ?_, ?_, ?_, ?_, ?_, ?_⟩
  · rintro g d n ⟨net, hg, hd⟩ i c hc t ht
    exact (h _ hg _ hd t ht).1 (c, i) (mem_zipIdx_iff.mpr hc)
  · rintro g d n ⟨net, hg, hd⟩ i c hc t ht
    exact (h _ hg _ hd t ht).2.1 (c, i) (mem_zipIdx_iff.mpr hc)
  · rintro g d n ⟨net, hg, hd⟩ i c hc t ht
    exact (h _ hg _ hd t ht).2.2 (c, i) (mem_zipIdx_iff.mpr hc)
  · exact fun g d n hn i c hc => absurd hc (hst hn)
  · exact fun g d n hn i c hc => absurd hc (hst hn)
  · exact fun g d n hn i c hc => absurd hc (hst hn)
  · exact fun p hp => absurd hp (hcv p)
  · exact fun p hp => absurd hp (hcv p)

theorem shortAnswer_optimal : Answers (fun _ => shortAnswer) shortStudy 0 Cmd.Optimal := by
  intro steps log h
  have e : log = fullLog shortStudy 0 := by
    rw [Ready.build short_ready (by decide +kernel)] at h
    cases h
    rfl
  have hf : Cmd.Feasible log shortAnswer := by
    rw [logOf_eq h]
    exact Cmd.feasible_of_check (by decide +kernel)
  refine ⟨hf, fun y hy => ?_⟩
  have hi := Built.inv short_ready.built
  rw [e] at hf hy ⊢
  rw [objective_eq hi, objective_eq hi]
  exact C75_certificate short_ready
    (feasible_of_code short_noSelf short_one ((feasible_iff hi 0 _).mp hf)) shortPrices_equilibrium
    (feasible_of_code short_noSelf short_one ((feasible_iff hi 0 _).mp hy))

theorem short_worst : LossIsWorst shortStudy 0 50 2 1000 := by
  have h : ∀ p ∈ shortStudy.networks, ∀ q ∈ p.2.nodes,
      (∀ c ∈ q.2.consumptions, ∀ t < shortStudy.horizon, 1000 ≤ val c.cost 0 t) ∧
      (∀ c ∈ q.2.productions, ∀ t < shortStudy.horizon, val c.cost 0 t ≤ 50) ∧
      (∀ c ∈ q.2.links, ∀ t < shortStudy.horizon, 0 ≤ val c.cost 0 t ∧ val c.cost 0 t ≤ 2) := by decide +kernel
  refine ⟨?_, ?_, ?_, by norm_num, by decide +kernel⟩
  · rintro g d n ⟨net, hg, hd⟩; exact (h _ hg _ hd).1
  · rintro g d n ⟨net, hg, hd⟩; exact (h _ hg _ hd).2.1
  · rintro g d n ⟨net, hg, hd⟩; exact (h _ hg _ hd).2.2

def shortResult : Result := resultAll shortStudy (valsOf (fun _ => shortAnswer) shortStudy) ⟨[], [], 0, 0⟩

/-- the two towns ask for 18, make 2 and can bring 10: 6 are lost -/
example : unserved shortStudy (dispatchOf shortStudy shortResult 0) 0 = 6 ∧
    deficit shortStudy 0 (fun _ d => d = "b" || d = "c") 0 = 6 ∧ deficit shortStudy 0 (fun _ _ => true) 0 = -4 ∧
    deficit shortStudy 0 (fun _ d => d = "b") 0 = 4 := by decide +kernel

example : IsGreatest {x | ∃ S, x = deficit shortStudy 0 S 0} (unserved shortStudy (dispatchOf shortStudy shortResult 0) 0) :=
  C97 short_ready short_noSelf (by decide +kernel) (Ready.solve short_ready _ _) shortAnswer_optimal short_onlyLinks short_worst
    (by decide +kernel)

/-- the same with a smaller link and more load, at other costs -/
def poorStudy : Study := ((World.start 1 1).run [.studyNetwork "elec", .netNode 0 "a",
  .nodeProduction 0 "wind" (.num 7) (.num 20), .netNode 0 "b", .nodeConsumption 0 "load" (.num 3) (.num 11),
  .netNode 0 "c", .nodeConsumption 0 "load" (.num 900) (.num 8), .nodeProduction 0 "gas" (.num 5) (.num 2),
  .netLink 0 "a" "b" (.num 0) (.num 5), .netLink 0 "b" "c" (.num 1) (.num 3), .netLink 0 "a" "c" (.num 2) (.num 4)]).study

theorem poor_ready : Ready poorStudy where
  built := ⟨1, 1, _, rawCalls_of (by decide +kernel), rfl⟩
  complete := by unfold CompleteConverters; decide +kernel
  ratios := RatiosNonzero.usable (by unfold RatiosNonzero; decide +kernel)
  clean := cleanSources_of (by decide +kernel)

theorem poor_noSelf : NoSelfLink poorStudy := by
  rintro g d n ⟨net, hg, hd⟩
  have : ∀ p ∈ poorStudy.networks, ∀ q ∈ p.2.nodes, ∀ l ∈ q.2.links, l.dest ≠ q.1 := by decide +kernel
  exact this _ hg _ hd

/-- a feasible answer, not the best one -/
def poorAnswer : Var → ℚ
  | .prod _ "elec" "a" 0 => 3
  | .link _ "elec" "a" 0 => 3
  | .lol _ "elec" "b" 0 => 8
  | .lol _ "elec" "c" 0 => 8
  | _ => 0

theorem poorAnswer_feasible : Answers (fun _ => poorAnswer) poorStudy 0 Cmd.Feasible := by
  intro steps log h
  rw [logOf_eq h]
  exact Cmd.feasible_of_check (by decide +kernel)

theorem short_better : BetterSupplied poorStudy 0 shortStudy 0 := by
  unfold BetterSupplied
  decide +kernel

example : unserved shortStudy (dispatchOf shortStudy shortResult 0) 0 ≤ unserved poorStudy
    (dispatchOf poorStudy (resultAll poorStudy (valsOf (fun _ => poorAnswer) poorStudy) ⟨[], [], 0, 0⟩) 0) 0 :=
  C97_more poor_ready poor_noSelf (by decide +kernel) (Ready.solve poor_ready _ _) poorAnswer_feasible short_ready short_noSelf
    (by decide +kernel) (Ready.solve short_ready _ _) shortAnswer_optimal short_onlyLinks short_worst short_better
    (by decide +kernel)

/-! ### The theorems applied to concrete cases -/

example := C97_bound short_ready short_noSelf (by decide +kernel)
  (Ready.solve short_ready (fun _ => shortAnswer) ⟨[], [], 0, 0⟩)
  (fun steps log h => (shortAnswer_optimal steps log h).1) (t := 0) (by decide +kernel)

/-- some region of the towns short of energy has a deficit, so that not everything is served -/
example : ¬ ∀ g d n, HasNode shortStudy g d n → ∀ i x, n.consumptions[i]? = some x →
    (dispatchOf shortStudy shortResult 0).lol g d i 0 = 0 := by
  intro h
  have := (C97_adequate short_ready short_noSelf (by decide +kernel)
    (Ready.solve short_ready (fun _ => shortAnswer) ⟨[], [], 0, 0⟩) shortAnswer_optimal short_onlyLinks short_worst
    (by decide +kernel)).mp h (fun _ d => d = "b" || d = "c")
  exact absurd this (by decide +kernel)

/-- nothing is made and all is lost -/
def idleShort : Var → ℚ
  | .lol _ "elec" "b" 0 => 10
  | .lol _ "elec" "c" 0 => 8
  | _ => 0

theorem idleShort_feasible : Spec.Feasible shortStudy 0 (ofVars idleShort) := by
  have hf : Cmd.Feasible (fullLog shortStudy 0) idleShort := Cmd.feasible_of_check (by decide +kernel)
  exact feasible_of_code short_noSelf short_one ((feasible_iff (Built.inv short_ready.built) 0 _).mp hf)

example : unserved shortStudy (dispatchOf shortStudy shortResult 0) 0 ≤ unserved shortStudy (ofVars idleShort) 0 :=
  C97_least short_ready short_noSelf (by decide +kernel)
  (Ready.solve short_ready (fun _ => shortAnswer) ⟨[], [], 0, 0⟩) shortAnswer_optimal short_onlyLinks short_worst
  (t := 0) (by decide +kernel) idleShort_feasible

end Props

end Hadar
