import Verif.Proofs.Invest
import Verif.Proofs.Program
import Verif.Props.Extension
import Verif.Props.Worth

/-!
# C121: what an investment is worth
-/

namespace Hadar.Props

open Hadar Spec World

variable {h n : ℕ} {cs cs' : List Call} {solver solver' : Solver} {b b' : Benchmark} {r r' : Result} {k : ℕ} {P P' : Prices}

theorem made_horizon (h n : ℕ) (cs : List Call) : (made h n cs).horizon = h := (run_ext (worldInv_start h n) cs).horizon

theorem noSelf_before (hself : NoSelfLink (made h n (cs ++ cs'))) : NoSelfLink (made h n cs) := by
  intro g d m hm l hlm
  obtain ⟨m', hm', hx⟩ := (made_ext h n cs cs').hasNode hm
  exact hself g d m' hm' l (hx.links.subset hlm)

theorem oneStorage_before (h1 : OneStorage (made h n (cs ++ cs'))) : OneStorage (made h n cs) := by
  intro g d m hm
  obtain ⟨m', hm', hx⟩ := (made_ext h n cs cs').hasNode hm
  exact hx.storages.length_le.trans (h1 g d m' hm')

/-- C121: further calls save at most what the elements they add seem to earn at the prices before, these elements taken alone -/
theorem C121_most (hs : Ready (made h n cs)) (hs' : Ready (made h n (cs ++ cs'))) (hself : NoSelfLink (made h n (cs ++ cs')))
    (h1 : OneStorage (made h n (cs ++ cs'))) (hk : k < n) (hc : SameConverters (made h n cs) (made h n (cs ++ cs')))
    (hr : solveLp solver b (made h n cs) = .ok r) (hr' : solveLp solver' b' (made h n (cs ++ cs')) = .ok r')
    (ha : Answers solver (made h n cs) k Cmd.Feasible) (ha' : Answers solver' (made h n (cs ++ cs')) k Cmd.Feasible)
    (he : Equilibrium (made h n cs) k (dispatchOf (made h n cs) r k) P)
    (hz : DrainsPriced (onlyNew (made h n cs) (made h n (cs ++ cs'))) k P) :
    cost (made h n cs) k (dispatchOf (made h n cs) r k) + worth (onlyNew (made h n cs) (made h n (cs ++ cs'))) k P ≤
      cost (made h n (cs ++ cs')) k (dispatchOf (made h n (cs ++ cs')) r' k) := by
  have hx := made_ext h n cs cs'
  have hi := Built.inv hs.built
  have hi' := Built.inv hs'.built
  have hk1 : k < (made h n cs).nbScn := by rw [made_nbScn]; exact hk
  have hk2 : k < (made h n (cs ++ cs')).nbScn := by rw [made_nbScn]; exact hk
  have hd : DrainsPriced (made h n (cs ++ cs')) k P := by
    intro p hp g d v hv t ht h0
    by_cases hm : p.1 ∈ (made h n cs).converters.map Prod.fst
    · obtain ⟨q, hq, e⟩ := List.mem_map.1 hm
      obtain rfl : q = p := List.inj_on_of_nodup_map hi'.names.converters (hc q hq) hp e
      exact he.drains q hq g d v hv t (by rw [made_horizon] at ht ⊢; exact ht) h0
    · exact hz p (List.mem_filter.2 ⟨hp, by simpa using hm⟩) g d v hv t ht h0
  rw [C81_equal hs (solved_feasible hs (noSelf_before hself) (oneStorage_before h1) hr hk1 ha) he, ← worth_new hx hi hi' hc h1]
  exact C81_lower hs' hd (solved_feasible hs' hself h1 hr' hk2 ha')

/-- C121: and they save at least what these elements earn at the prices after, taken alone -/
theorem C121_least (hs : Ready (made h n cs)) (hs' : Ready (made h n (cs ++ cs'))) (hself : NoSelfLink (made h n (cs ++ cs')))
    (h1 : OneStorage (made h n (cs ++ cs'))) (hk : k < n) (hc : SameConverters (made h n cs) (made h n (cs ++ cs')))
    (hr : solveLp solver b (made h n cs) = .ok r) (hr' : solveLp solver' b' (made h n (cs ++ cs')) = .ok r')
    (ha : Answers solver (made h n cs) k Cmd.Feasible) (ha' : Answers solver' (made h n (cs ++ cs')) k Cmd.Feasible)
    (he' : Equilibrium (made h n (cs ++ cs')) k (dispatchOf (made h n (cs ++ cs')) r' k) P') :
    cost (made h n (cs ++ cs')) k (dispatchOf (made h n (cs ++ cs')) r' k) ≤
      cost (made h n cs) k (dispatchOf (made h n cs) r k) + worth (onlyNew (made h n cs) (made h n (cs ++ cs'))) k P' := by
  have hx := made_ext h n cs cs'
  have hk1 : k < (made h n cs).nbScn := by rw [made_nbScn]; exact hk
  have hk2 : k < (made h n (cs ++ cs')).nbScn := by rw [made_nbScn]; exact hk
  have hd : DrainsPriced (made h n cs) k P' := fun p hp g d v hv t ht h0 =>
    he'.drains p (hc p hp) g d v hv t (by rw [made_horizon] at ht ⊢; exact ht) h0
  rw [C81_equal hs' (solved_feasible hs' hself h1 hr' hk2 ha') he', worth_new hx (Built.inv hs.built) (Built.inv hs'.built) hc h1]
  have := C81_lower hs hd (solved_feasible hs (noSelf_before hself) (oneStorage_before h1) hr hk1 ha)
  linarith

/-- the study after one more call -/
theorem made_snoc (h n : ℕ) (cs : List Call) (c : Call) : made h n (cs ++ [c]) = (step c ((start h n).run cs)).2.study := by
  unfold made World.run
  rw [List.foldl_append]
  rfl

theorem sumL_neg' {α : Type} (l : List α) (f : α → ℚ) : sumL l (fun a => -f a) = -sumL l f := by
  have := sumL_add l (fun a => -f a) f
  simp only [neg_add_cancel] at this
  rw [sumL_zero] at this
  linarith

/-- the saving of one changed node, at prices before and after -/
theorem saving_changed {s s' : Study} {g d : String} {m m' : InputNode} (hs : Ready s) (hs' : Ready s') (hc : OnlyNodeChanged s s' g d m m')
    (hst : m'.storages = m.storages) {D D' : Dispatch} (hD : Spec.Feasible s k D) (hD' : Spec.Feasible s' k D')
    (he : Equilibrium s k D P) (he' : Equilibrium s' k D' P') :
    cost s k D - cost s' k D' ≤ -(sumL (List.range s.horizon) fun t => nodeWorth s k P t g d m' - nodeWorth s k P t g d m) ∧
    -(sumL (List.range s.horizon) fun t => nodeWorth s k P' t g d m' - nodeWorth s k P' t g d m) ≤ cost s k D - cost s' k D' := by
  have hcv : s'.converters = s.converters := by
    obtain ⟨pre, post, npre, npost, _, rfl⟩ := hc
    rfl
  have hh : s'.horizon = s.horizon := by
    obtain ⟨pre, post, npre, npost, _, rfl⟩ := hc
    rfl
  have d1 : DrainsPriced s' k P := by
    unfold DrainsPriced
    rw [hcv, hh]
    exact he.drains
  have d2 : DrainsPriced s k P' := by
    have := he'.drains
    unfold DrainsPriced at this
    rw [hcv, hh] at this
    exact this
  have w1 := worth_changed (k := k) (P := P) hc hst
  have w2 := worth_changed (k := k) (P := P') hc hst
  have a1 := C81_equal hs hD he
  have a2 := C81_equal hs' hD' he'
  have b1 := C81_lower hs d2 hD
  have b2 := C81_lower hs' d1 hD'
  constructor <;> linarith

/-- C121: a production that a call adds saves at most what it would earn at the prices before, running wherever the price is above its
cost, and at least what it earns at the prices after with what it is asked to produce. -/
theorem C121_production {ref : ℕ} {name : String} {pc q : Raw} {hd : Handle} (hq : IsRaw q) (hpc : IsRaw pc)
    (hstep : (step (.nodeProduction ref name pc q) ((start h n).run cs)).1 = .ok hd)
    (hs : Ready (made h n cs)) (hs' : Ready (made h n (cs ++ [.nodeProduction ref name pc q])))
    (hself : NoSelfLink (made h n (cs ++ [.nodeProduction ref name pc q])))
    (h1 : OneStorage (made h n (cs ++ [.nodeProduction ref name pc q]))) (hk : k < n)
    (hr : solveLp solver b (made h n cs) = .ok r)
    (hr' : solveLp solver' b' (made h n (cs ++ [.nodeProduction ref name pc q])) = .ok r')
    (ha : Answers solver (made h n cs) k Cmd.Feasible)
    (ha' : Answers solver' (made h n (cs ++ [.nodeProduction ref name pc q])) k Cmd.Feasible)
    (he : Equilibrium (made h n cs) k (dispatchOf (made h n cs) r k) P)
    (he' : Equilibrium (made h n (cs ++ [.nodeProduction ref name pc q])) k
      (dispatchOf (made h n (cs ++ [.nodeProduction ref name pc q])) r' k) P') :
    ∃ g d, ∃ c x : ℕ → ℚ, StandsFor ((start h n).run cs) ref g d ∧
      (∀ t < h, Means h n pc k t (c t) ∧ Means h n q k t (x t)) ∧
      cost (made h n cs) k (dispatchOf (made h n cs) r k) -
        cost (made h n (cs ++ [.nodeProduction ref name pc q])) k
          (dispatchOf (made h n (cs ++ [.nodeProduction ref name pc q])) r' k) ≤
        (sumL (List.range h) fun t => max 0 (P.node g d t - c t) * x t) ∧
      (sumL (List.range h) fun t => (P'.node g d t - c t) *
        (dispatchOf (made h n (cs ++ [.nodeProduction ref name pc q])) r' k).prod g d (inNode (made h n cs) g d).productions.length t) ≤
        cost (made h n cs) k (dispatchOf (made h n cs) r k) -
          cost (made h n (cs ++ [.nodeProduction ref name pc q])) k
            (dispatchOf (made h n (cs ++ [.nodeProduction ref name pc q])) r' k) := by
  have hk1 : k < (made h n cs).nbScn := by rw [made_nbScn]; exact hk
  have hk2 : k < (made h n (cs ++ [.nodeProduction ref name pc q])).nbScn := by rw [made_nbScn]; exact hk
  have hD := solved_feasible hs (noSelf_before hself) (oneStorage_before h1) hr hk1 ha
  have hD' := solved_feasible hs' hself h1 hr' hk2 ha'
  obtain ⟨g, d, m, qv, cv, hg, hch, sq, sc, -, -⟩ := C09_production _ _ ref name pc q hd hq hpc (Prod.ext hstep rfl)
  rw [← made_snoc] at hch
  change OnlyNodeChanged (made h n cs) _ g d m _ at hch
  change Stores (made h n cs).horizon (made h n cs).nbScn q qv at sq
  change Stores (made h n cs).horizon (made h n cs).nbScn pc cv at sc
  rw [made_horizon, made_nbScn] at sq sc
  obtain ⟨up, lo⟩ := saving_changed hs hs' hch rfl hD hD' he he'
  refine ⟨g, d, val cv k, val qv k, hg, fun t ht => ⟨stores_val sc hk ht, stores_val sq hk ht⟩, ?_, ?_⟩
  · simp only [nodeWorth_production, sumL_neg', neg_neg, made_horizon] at up
    exact up
  · simp only [nodeWorth_production, sumL_neg', neg_neg, made_horizon] at lo
    refine le_trans (le_of_eq (sumL_congr fun t ht => ?_)) lo
    have hm : HasNode (made h n cs) g d m := by
      obtain ⟨pre, post, npre, npost, e, -⟩ := hch
      exact ⟨⟨npre ++ (d, m) :: npost⟩, by rw [e]; simp, by simp⟩
    rw [inNode_eq (Built.inv hs.built) hm]
    have hb := he'.productions g d _ (hasNode_changed hch) m.productions.length ⟨name, cv, qv⟩ (by simp) t
      (by rw [made_horizon]; exact List.mem_range.1 ht)
    have := hb.earns
    simp only [neg_sub] at this
    exact this.symm

/-- C121: a link that a call adds saves at most what it would earn at the prices before, carrying all it can wherever the difference of
prices is above its cost, and at least what it earns at the prices after with what it carries. -/
theorem C121_link {c : Call} {src dest : String} {lc q : Raw} {hd : Handle}
    (hcall : (∃ g, c = .studyAddLink g src dest lc q) ∨ (∃ ref, c = .netLink ref src dest lc q) ∨ (∃ ref, c = .nodeLink ref src dest lc q))
    (hq : IsRaw q) (hlc : IsRaw lc) (hstep : (step c ((start h n).run cs)).1 = .ok hd)
    (hs : Ready (made h n cs)) (hs' : Ready (made h n (cs ++ [c]))) (hself : NoSelfLink (made h n (cs ++ [c])))
    (h1 : OneStorage (made h n (cs ++ [c]))) (hk : k < n)
    (hr : solveLp solver b (made h n cs) = .ok r) (hr' : solveLp solver' b' (made h n (cs ++ [c])) = .ok r')
    (ha : Answers solver (made h n cs) k Cmd.Feasible) (ha' : Answers solver' (made h n (cs ++ [c])) k Cmd.Feasible)
    (he : Equilibrium (made h n cs) k (dispatchOf (made h n cs) r k) P)
    (he' : Equilibrium (made h n (cs ++ [c])) k (dispatchOf (made h n (cs ++ [c])) r' k) P') :
    ∃ g, ∃ v x : ℕ → ℚ, (∀ g', c = .studyAddLink g' src dest lc q → g = g') ∧
      (∀ ref, c = .netLink ref src dest lc q ∨ c = .nodeLink ref src dest lc q →
        ∃ d, ((start h n).run cs).heap[ref]? = some ⟨some g, d⟩) ∧
      (∀ t < h, Means h n lc k t (v t) ∧ Means h n q k t (x t)) ∧
      cost (made h n cs) k (dispatchOf (made h n cs) r k) - cost (made h n (cs ++ [c])) k (dispatchOf (made h n (cs ++ [c])) r' k) ≤
        (sumL (List.range h) fun t => max 0 (P.node g dest t - P.node g src t - v t) * x t) ∧
      (sumL (List.range h) fun t => (P'.node g dest t - P'.node g src t - v t) *
        (dispatchOf (made h n (cs ++ [c])) r' k).link g src (inNode (made h n cs) g src).links.length t) ≤
        cost (made h n cs) k (dispatchOf (made h n cs) r k) - cost (made h n (cs ++ [c])) k (dispatchOf (made h n (cs ++ [c])) r' k) := by
  have hk1 : k < (made h n cs).nbScn := by rw [made_nbScn]; exact hk
  have hk2 : k < (made h n (cs ++ [c])).nbScn := by rw [made_nbScn]; exact hk
  have hD := solved_feasible hs (noSelf_before hself) (oneStorage_before h1) hr hk1 ha
  have hD' := solved_feasible hs' hself h1 hr' hk2 ha'
  obtain ⟨g, m, qv, cv, hch, e1, e2, -, sq, sc, -⟩ := C09_link _ _ c src dest lc q hd hcall hq hlc (Prod.ext hstep rfl)
  rw [← made_snoc] at hch
  change OnlyNodeChanged (made h n cs) _ g src m _ at hch
  change Stores (made h n cs).horizon (made h n cs).nbScn q qv at sq
  change Stores (made h n cs).horizon (made h n cs).nbScn lc cv at sc
  rw [made_horizon, made_nbScn] at sq sc
  obtain ⟨up, lo⟩ := saving_changed hs hs' hch rfl hD hD' he he'
  refine ⟨g, val cv k, val qv k, e1, e2, fun t ht => ⟨stores_val sc hk ht, stores_val sq hk ht⟩, ?_, ?_⟩
  · simp only [nodeWorth_link, sumL_neg', neg_neg, made_horizon] at up
    exact up
  · simp only [nodeWorth_link, sumL_neg', neg_neg, made_horizon] at lo
    refine le_trans (le_of_eq (sumL_congr fun t ht => ?_)) lo
    have hm : HasNode (made h n cs) g src m := by
      obtain ⟨pre, post, npre, npost, e, -⟩ := hch
      exact ⟨⟨npre ++ (src, m) :: npost⟩, by rw [e]; simp, by simp⟩
    rw [inNode_eq (Built.inv hs.built) hm]
    have hb := he'.links g src _ (hasNode_changed hch) m.links.length ⟨dest, qv, cv⟩ (by simp) t
      (by rw [made_horizon]; exact List.mem_range.1 ht)
    have := hb.earns
    rw [show -(val cv k t + P'.node g src t - P'.node g dest t) = P'.node g dest t - P'.node g src t - val cv k t by ring] at this
    exact this.symm

/-! ### A concrete case: load 10 at `b`, 8 units of fuel there for 50, and nuclear at `a` for 20 -/

def stationCalls : List Call :=
  [.studyNetwork "elec", .netNode 0 "a", .nodeProduction 0 "nuke" (.num 20) (.num 10),
   .netNode 0 "b", .nodeConsumption 0 "load" (.num 100) (.num 10), .nodeProduction 0 "fuel" (.num 50) (.num 8)]

/-- wind at `b` -/
def windCall : Call := .nodeProduction 0 "wind" (.num 10) (.num 4)

/-- or a link from `a` -/
def lineCall : Call := .netLink 0 "a" "b" (.num 1) (.num 3)

def stationAnswer : Var → ℚ
  | .prod _ _ "b" 0 => 8
  | .lol _ _ "b" 0 => 2
  | _ => 0

def windStationAnswer : Var → ℚ
  | .prod _ _ "b" 0 => 6
  | .prod _ _ "b" 1 => 4
  | _ => 0

def lineAnswer : Var → ℚ
  | .prod _ _ "a" 0 => 3
  | .prod _ _ "b" 0 => 7
  | .link .. => 3
  | _ => 0

/-- price at `a` is 20, price at `b` is given -/
def pricesAt (b : ℚ) : Prices where
  node _ d _ := if d = "a" then 20 else b
  stored _ _ _ _ := 0
  used _ _ _ := 0

theorem station_raw : ∀ c ∈ stationCalls, RawCall c := rawCalls_of (by decide +kernel)
theorem windStation_raw : ∀ c ∈ stationCalls ++ [windCall], RawCall c := rawCalls_of (by decide +kernel)
theorem lineStation_raw : ∀ c ∈ stationCalls ++ [lineCall], RawCall c := rawCalls_of (by decide +kernel)

theorem station_ready : Ready (made 1 1 stationCalls) where
  built := ⟨1, 1, stationCalls, station_raw, rfl⟩
  complete := by unfold CompleteConverters; decide +kernel
  ratios := RatiosNonzero.usable (by unfold RatiosNonzero; decide +kernel)
  clean := cleanSources_of (by decide +kernel)

theorem windStation_ready : Ready (made 1 1 (stationCalls ++ [windCall])) where
  built := ⟨1, 1, stationCalls ++ [windCall], windStation_raw, rfl⟩
  complete := by unfold CompleteConverters; decide +kernel
  ratios := RatiosNonzero.usable (by unfold RatiosNonzero; decide +kernel)
  clean := cleanSources_of (by decide +kernel)

theorem lineStation_ready : Ready (made 1 1 (stationCalls ++ [lineCall])) where
  built := ⟨1, 1, stationCalls ++ [lineCall], lineStation_raw, rfl⟩
  complete := by unfold CompleteConverters; decide +kernel
  ratios := RatiosNonzero.usable (by unfold RatiosNonzero; decide +kernel)
  clean := cleanSources_of (by decide +kernel)

/-- a check of prices for studies without storage nor converter -/
theorem prices_of {s : Study} {D : Dispatch} (hc : s.converters = []) (hst : ∀ p ∈ s.networks, ∀ q ∈ p.2.nodes, q.2.storages = [])
    (h : ∀ p ∈ s.networks, ∀ q ∈ p.2.nodes, ∀ t < s.horizon,
      (∀ c ∈ q.2.consumptions.zipIdx, Best (val c.1.cost k t - P.node p.1 q.1 t) (D.lol p.1 q.1 c.2 t) (val c.1.quantity k t)) ∧
      (∀ c ∈ q.2.productions.zipIdx, Best (val c.1.cost k t - P.node p.1 q.1 t) (D.prod p.1 q.1 c.2 t) (val c.1.quantity k t)) ∧
      (∀ c ∈ q.2.links.zipIdx, Best (val c.1.cost k t + P.node p.1 q.1 t - P.node p.1 c.1.dest t) (D.link p.1 q.1 c.2 t)
        (val c.1.quantity k t))) : Equilibrium s k D P := by
  refine ⟨?_, ?_, ?_, ?_, ?_, ?_, ?_, ?_⟩
  · rintro g d n ⟨net, hg, hd⟩ i c hc t ht
    exact (h _ hg _ hd t ht).1 (c, i) (mem_zipIdx_iff.mpr hc)
  · rintro g d n ⟨net, hg, hd⟩ i c hc t ht
    exact (h _ hg _ hd t ht).2.1 (c, i) (mem_zipIdx_iff.mpr hc)
  · rintro g d n ⟨net, hg, hd⟩ i c hc t ht
    exact (h _ hg _ hd t ht).2.2 (c, i) (mem_zipIdx_iff.mpr hc)
  · rintro g d n ⟨net, hg, hd⟩ i c hc
    have := hst _ hg _ hd
    simp only at this
    rw [this] at hc
    cases hc
  · rintro g d n ⟨net, hg, hd⟩ i c hc
    have := hst _ hg _ hd
    simp only at this
    rw [this] at hc
    cases hc
  · rintro g d n ⟨net, hg, hd⟩ i c hc
    have := hst _ hg _ hd
    simp only at this
    rw [this] at hc
    cases hc
  · rw [hc]; exact fun p hp => nomatch hp
  · rw [hc]; exact fun p hp => nomatch hp

theorem noSelf_of {s : Study} (h : ∀ p ∈ s.networks, ∀ q ∈ p.2.nodes, ∀ l ∈ q.2.links, l.dest ≠ q.1) : NoSelfLink s := by
  rintro g d n ⟨net, hg, hd⟩
  exact h _ hg _ hd

theorem oneStorage_of {s : Study} (h : ∀ p ∈ s.networks, ∀ q ∈ p.2.nodes, q.2.storages.length ≤ 1) : OneStorage s := by
  rintro g d n ⟨net, hg, hd⟩
  exact h _ hg _ hd

theorem feasibleAnswer_of {s : Study} {x : Var → ℚ} (h : (logOf s 0).all (Cmd.check (logOf s 0) x)) :
    Answers (fun _ => x) s 0 Cmd.Feasible := by
  intro steps log hl
  rw [logOf_eq hl]
  exact Cmd.feasible_of_check h

abbrev stationResult : Result := resultAll (made 1 1 stationCalls) (valsOf (fun _ => stationAnswer) (made 1 1 stationCalls)) ⟨[], [], 0, 0⟩
abbrev windResult : Result :=
  resultAll (made 1 1 (stationCalls ++ [windCall])) (valsOf (fun _ => windStationAnswer) (made 1 1 (stationCalls ++ [windCall]))) ⟨[], [], 0, 0⟩
abbrev lineResult : Result :=
  resultAll (made 1 1 (stationCalls ++ [lineCall])) (valsOf (fun _ => lineAnswer) (made 1 1 (stationCalls ++ [lineCall]))) ⟨[], [], 0, 0⟩

theorem station_prices : Equilibrium (made 1 1 stationCalls) 0 (dispatchOf (made 1 1 stationCalls) stationResult 0) (pricesAt 100) :=
  prices_of (by decide +kernel) (by decide +kernel) (by decide +kernel)

theorem wind_prices : Equilibrium (made 1 1 (stationCalls ++ [windCall])) 0
    (dispatchOf (made 1 1 (stationCalls ++ [windCall])) windResult 0) (pricesAt 50) :=
  prices_of (by decide +kernel) (by decide +kernel) (by decide +kernel)

theorem line_prices : Equilibrium (made 1 1 (stationCalls ++ [lineCall])) 0
    (dispatchOf (made 1 1 (stationCalls ++ [lineCall])) lineResult 0) (pricesAt 50) :=
  prices_of (by decide +kernel) (by decide +kernel) (by decide +kernel)

example := C121_most (cs' := [windCall]) (b := ⟨[], [], 0, 0⟩) (b' := ⟨[], [], 0, 0⟩) station_ready windStation_ready
  (noSelf_of (by decide +kernel)) (oneStorage_of (by decide +kernel)) (by decide)
  (by unfold SameConverters; decide +kernel) (Ready.solve station_ready (fun _ => stationAnswer) _) (Ready.solve windStation_ready (fun _ => windStationAnswer) _)
  (feasibleAnswer_of (by decide +kernel)) (feasibleAnswer_of (by decide +kernel)) station_prices
  (by have : (onlyNew (made 1 1 stationCalls) (made 1 1 (stationCalls ++ [windCall]))).converters = [] := by decide +kernel
      unfold DrainsPriced; rw [this]; exact fun p hp => nomatch hp)

example := C121_least (cs' := [windCall]) (b := ⟨[], [], 0, 0⟩) (b' := ⟨[], [], 0, 0⟩) station_ready windStation_ready
  (noSelf_of (by decide +kernel)) (oneStorage_of (by decide +kernel)) (by decide)
  (by unfold SameConverters; decide +kernel) (Ready.solve station_ready (fun _ => stationAnswer) _) (Ready.solve windStation_ready (fun _ => windStationAnswer) _)
  (feasibleAnswer_of (by decide +kernel)) (feasibleAnswer_of (by decide +kernel)) wind_prices

theorem wind_accepted : (step windCall ((start 1 1).run stationCalls)).1 = .ok (.node 0) := by with_unfolding_all rfl
theorem line_accepted : (step lineCall ((start 1 1).run stationCalls)).1 = .ok (.net 0) := by with_unfolding_all rfl

example := C121_production (cs := stationCalls) (ref := 0) (name := "wind") (pc := .num 10) (q := .num 4) (hd := .node 0)
  (b := ⟨[], [], 0, 0⟩) (b' := ⟨[], [], 0, 0⟩) (by simp [IsRaw]) (by simp [IsRaw])
  wind_accepted station_ready windStation_ready
  (noSelf_of (by decide +kernel)) (oneStorage_of (by decide +kernel)) (by decide)
  (Ready.solve station_ready (fun _ => stationAnswer) _) (Ready.solve windStation_ready (fun _ => windStationAnswer) _)
  (feasibleAnswer_of (by decide +kernel)) (feasibleAnswer_of (by decide +kernel)) station_prices wind_prices

example := C121_link (cs := stationCalls) (c := lineCall) (b := ⟨[], [], 0, 0⟩) (b' := ⟨[], [], 0, 0⟩) (Or.inr (Or.inl ⟨0, rfl⟩)) (by simp [IsRaw]) (by simp [IsRaw])
  line_accepted station_ready lineStation_ready
  (noSelf_of (by decide +kernel)) (oneStorage_of (by decide +kernel)) (by decide)
  (Ready.solve station_ready (fun _ => stationAnswer) _) (Ready.solve lineStation_ready (fun _ => lineAnswer) _)
  (feasibleAnswer_of (by decide +kernel)) (feasibleAnswer_of (by decide +kernel)) station_prices line_prices

/-- wind saves 260, between 160 and 360; the link saves 187, between 87 and 237 -/
example : cost (made 1 1 stationCalls) 0 (dispatchOf (made 1 1 stationCalls) stationResult 0) = 600 ∧
    cost (made 1 1 (stationCalls ++ [windCall])) 0 (dispatchOf (made 1 1 (stationCalls ++ [windCall])) windResult 0) = 340 ∧
    worth (onlyNew (made 1 1 stationCalls) (made 1 1 (stationCalls ++ [windCall]))) 0 (pricesAt 100) = -360 ∧
    worth (onlyNew (made 1 1 stationCalls) (made 1 1 (stationCalls ++ [windCall]))) 0 (pricesAt 50) = -160 ∧
    cost (made 1 1 (stationCalls ++ [lineCall])) 0 (dispatchOf (made 1 1 (stationCalls ++ [lineCall])) lineResult 0) = 413 ∧
    worth (onlyNew (made 1 1 stationCalls) (made 1 1 (stationCalls ++ [lineCall]))) 0 (pricesAt 100) = -237 ∧
    worth (onlyNew (made 1 1 stationCalls) (made 1 1 (stationCalls ++ [lineCall]))) 0 (pricesAt 50) = -87 := by decide +kernel

end Hadar.Props
