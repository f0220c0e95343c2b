import Verif.Proofs.Aggregates
import Verif.Proofs.LPCheck

/-!
# C28, C42 - C46: sums computed by the analyzer
-/

namespace Hadar.Props

open Hadar Spec

/-- the analyzer can be made if every converter has a destination and exactly one source, and there is
at most one storage -/
theorem init_total {s : Study} {r : Result} (hb : Built s) (hm : Mirrors s r) (junk : Junk)
    (hc : CompleteConverters s)
    (h1 : ∀ p ∈ s.converters, p.2.srcRatios.length = 1) (hst : storageCount s ≤ 1) :
    ∃ a, Analyzer.init junk s r = .ok a := by
  obtain ⟨f1, e1, _⟩ := C31 hb hm junk
  obtain ⟨f2, e2, _⟩ := C32 hb hm junk
  obtain ⟨f4, e4, _⟩ := C33 hb hm junk
  obtain ⟨f5, e5, _⟩ := C36_partial hb hm junk hc h1
  obtain ⟨f6, e6, _⟩ := C35_one_partial hb hm junk hc h1
  obtain ⟨f3, e3, _⟩ := C34_partial hb hm junk hst
  unfold Analyzer.init
  rw [e1, e2, e3, e4, e5, e6]
  exact ⟨_, rfl⟩

/-! ### C46 -/

/-- C46: counts of a node -/
theorem C46_node {junk : Junk} {s : Study} {r : Result} {a : Analyzer} (hb : Built s)
    (ha : Analyzer.init junk s r = .ok a) {g d : String} {n : InputNode} (hn : HasNode s g d n) :
    a.elementsInside (some d) (some g) = .ok (counts s g d n) :=
  nodeElements_ok (init_ok ha).1 (Built.inv hb) hn

/-- C46: counts of a node of the network `default` -/
theorem C46_default {junk : Junk} {s : Study} {r : Result} {a : Analyzer} (hb : Built s)
    (ha : Analyzer.init junk s r = .ok a) {d : String} {n : InputNode} (hn : HasNode s "default" d n)
    (h0 : d ≠ "") : a.elementsInside (some d) none = .ok (counts s "default" d n) := by
  show (if d = "" then _ else _) = _
  rw [if_neg h0]
  exact nodeElements_ok (init_ok ha).1 (Built.inv hb) hn

/-- C46 (partial): counts of a network are the sums over its nodes. Missing: a network with an empty
name, see `C46_refuted`. -/
theorem C46_network_partial {junk : Junk} {s : Study} {r : Result} {a : Analyzer} (hb : Built s)
    (ha : Analyzer.init junk s r = .ok a) {g : String} {net : InputNetwork}
    (hg : (g, net) ∈ s.networks) (h0 : g ≠ "") :
    a.elementsInside none (some g) = .ok (totals (net.nodes.map fun q => counts s g q.1 q.2)) :=
  networkElements_ok (init_ok ha).1 (Built.inv hb) hg h0

/-- C46 (partial): counts of a study are the sums over its networks. Missing: see `C46_refuted`. -/
theorem C46_study_partial {junk : Junk} {s : Study} {r : Result} {a : Analyzer} (hb : Built s)
    (ha : Analyzer.init junk s r = .ok a) (h0 : "" ∉ s.networks.map Prod.fst) :
    a.elementsInside none none = .ok (totals (s.networks.map fun p =>
      totals (p.2.nodes.map fun q => counts s p.1 q.1 q.2))) :=
  studyElements_ok (init_ok ha).1 (Built.inv hb) h0

/-- C46 refuted: nothing can be counted in a study that has a network with an empty name, wherever this network stands -/
theorem C46_refuted {junk : Junk} {s : Study} {r : Result} {a : Analyzer} (hb : Built s)
    (ha : Analyzer.init junk s r = .ok a) (h0 : "" ∈ s.networks.map Prod.fst) :
    a.elementsInside none (some "") = .error .keyError ∧ a.elementsInside none none = .error .keyError ∧
    a.getCost none (some "") = .error .keyError ∧ a.getCost none none = .error .keyError := by
  have hs := (init_ok ha).1
  have h1 : a.elementsInside none (some "") = .error .keyError := rfl
  have h2 : a.elementsInside none none = .error .keyError := by
    unfold Analyzer.elementsInside
    simp only [hs]
    have key : ∀ (l : List (String × InputNetwork)) (z : List ℕ), (∀ p ∈ l, p ∈ s.networks) → "" ∈ l.map Prod.fst →
        l.foldlM (fun size p => do
          let x ← a.networkElements p.1
          pure (Analyzer.addCounts size x)) z = (.error .keyError : Except PyErr (List ℕ)) := by
      intro l
      induction l with
      | nil => intro z _ h; cases h
      | cons p l ih =>
        intro z hl h
        rw [List.foldlM_cons]
        by_cases e : p.1 = ""
        · rw [e]; rfl
        · rw [networkElements_ok hs (Built.inv hb) (hl p List.mem_cons_self) e]
          refine ih _ (fun q hq => hl q (List.mem_cons_of_mem _ hq)) ?_
          rw [List.map_cons, List.mem_cons] at h
          exact h.resolve_left fun h' => e h'.symm
    exact key _ _ (fun _ h => h) h0
  refine ⟨h1, h2, ?_, ?_⟩
  · unfold Analyzer.getCost; rw [h1]; rfl
  · unfold Analyzer.getCost; rw [h2]; rfl

/-! ### C42, C43 -/

theorem counts_one {c : List ℕ} (i : ℕ) : ([c].map fun c => c.getD i 0).sum = c.getD i 0 := by simp

/-- C42 (partial): the cost of a node is the cost of its elements and of what converters give to it.
Missing: nodes with storages when the study has several storages, see `C42_refuted`. -/
theorem C42_partial {junk : Junk} {s : Study} {r : Result} {a : Analyzer} (hb : Built s)
    (hm : Mirrors s r) (ha : Analyzer.init junk s r = .ok a) {g d : String} {n : InputNode}
    (hn : HasNode s g d n) (hst : n.storages ≠ [] → storageCount s ≤ 1) :
    ∃ c, a.getCost (some d) (some g) = .ok c ∧ Holds s c fun k t =>
      nodeCost k (dispatchOf s r k) g d n t + arrivalCost s k (dispatchOf s r k) g d t := by
  obtain ⟨c, e, h⟩ := getCost_ok hb hm ha (network' := some g) rfl (C46_node hb ha hn) (by
      intro i _
      rw [places_node (Built.inv hb) hn]
      simp) (fun h => hst fun h0 => h (by simp [counts, h0]))
  rw [places_node (Built.inv hb) hn] at h
  refine ⟨c, e, (h.congr ?_).holds⟩
  intro k _ t _
  simp [sumL]

/-- C42 (partial): the network is `default` when it is not given -/
theorem C42_default_partial {junk : Junk} {s : Study} {r : Result} {a : Analyzer} (hb : Built s)
    (hm : Mirrors s r) (ha : Analyzer.init junk s r = .ok a) {d : String} {n : InputNode}
    (hn : HasNode s "default" d n) (h0 : d ≠ "") (hst : n.storages ≠ [] → storageCount s ≤ 1) :
    ∃ c, a.getCost (some d) none = .ok c ∧ Holds s c fun k t =>
      nodeCost k (dispatchOf s r k) "default" d n t +
        arrivalCost s k (dispatchOf s r k) "default" d t := by
  obtain ⟨c, e, h⟩ := getCost_ok hb hm ha (network' := some "default")
    (by simp [Analyzer.orDefault, h0]) (C46_default hb ha hn h0) (by
      intro i _
      rw [places_node (Built.inv hb) hn]
      simp) (fun h => hst fun h0 => h (by simp [counts, h0]))
  rw [places_node (Built.inv hb) hn] at h
  refine ⟨c, e, (h.congr ?_).holds⟩
  intro k _ t _
  simp [sumL]

/-- cost of a network, by its elements -/
theorem cost_network {junk : Junk} {s : Study} {r : Result} {a : Analyzer} (hb : Built s)
    (hm : Mirrors s r) (ha : Analyzer.init junk s r = .ok a) {g : String} {net : InputNetwork}
    (hg : (g, net) ∈ s.networks) (h0 : g ≠ "") (hst : storageCount s ≤ 1) :
    ∃ c, a.getCost none (some g) = .ok c ∧ Holds s c fun k t => sumL net.nodes fun q =>
      nodeCost k (dispatchOf s r k) g q.1 q.2 t + arrivalCost s k (dispatchOf s r k) g q.1 t := by
  obtain ⟨c, e, h⟩ := getCost_ok hb hm ha (network' := some g) rfl
    (C46_network_partial hb ha hg h0) (by
      intro i hi
      rw [places_network (Built.inv hb) hg, totals_getD hi, List.map_map, List.map_map]
      rfl) (fun _ => hst)
  rw [places_network (Built.inv hb) hg] at h
  refine ⟨c, e, (h.congr ?_).holds⟩
  intro k _ t _
  rw [sumL_map]

/-- cost of a study, by its elements -/
theorem cost_study {junk : Junk} {s : Study} {r : Result} {a : Analyzer} (hb : Built s)
    (hm : Mirrors s r) (ha : Analyzer.init junk s r = .ok a) (h0 : "" ∉ s.networks.map Prod.fst)
    (hst : storageCount s ≤ 1) :
    ∃ c, a.getCost none none = .ok c ∧ Holds s c fun k t => sumL s.networks fun p =>
      sumL p.2.nodes fun q => nodeCost k (dispatchOf s r k) p.1 q.1 q.2 t +
        arrivalCost s k (dispatchOf s r k) p.1 q.1 t := by
  obtain ⟨c, e, h⟩ := getCost_ok hb hm ha (network' := none) rfl
    (C46_study_partial hb ha h0) (by
      intro i hi
      rw [places_all, totals_getD hi, List.map_map]
      unfold places
      rw [List.map_flatMap, List.flatMap_def, List.sum_flatten, List.map_map]
      refine congrArg List.sum (List.map_congr_left fun p _ => ?_)
      simp only [Function.comp_apply]
      rw [totals_getD hi, List.map_map, List.map_map]
      rfl) (fun _ => hst)
  rw [places_all] at h
  refine ⟨c, e, (h.congr ?_).holds⟩
  intro k _ t _
  unfold places
  rw [sumL_flatMap]
  refine sumL_congr fun p _ => ?_
  rw [sumL_map]

/-- C43 (partial): the cost of a network is the sum of the costs of its nodes. Missing: networks with
an empty name (`C46_refuted`), studies with several storages (`C42_refuted`). -/
theorem C43_network_partial {junk : Junk} {s : Study} {r : Result} {a : Analyzer} (hb : Built s)
    (hm : Mirrors s r) (ha : Analyzer.init junk s r = .ok a) {g : String} {net : InputNetwork}
    (hg : (g, net) ∈ s.networks) (h0 : g ≠ "") (hst : storageCount s ≤ 1) :
    ∃ (c : NdArray) (C : String → NdArray), a.getCost none (some g) = .ok c ∧
      (∀ q ∈ net.nodes, a.getCost (some q.1) (some g) = .ok (C q.1)) ∧
      Holds s c fun k t => sumL net.nodes fun q => cell (C q.1) k t := by
  obtain ⟨c, e, h⟩ := cost_network hb hm ha hg h0 hst
  have key : ∀ q ∈ net.nodes, ∃ x, a.getCost (some q.1) (some g) = .ok x ∧ Holds s x fun k t =>
      nodeCost k (dispatchOf s r k) g q.1 q.2 t + arrivalCost s k (dispatchOf s r k) g q.1 t :=
    fun q hq => C42_partial hb hm ha ⟨net, hg, hq⟩ fun _ => hst
  refine ⟨c, fun d => ((a.getCost (some d) (some g)).toOption).getD (NdArray.zeros 0 0), e, ?_, h.1, ?_⟩
  · intro q hq
    obtain ⟨x, ex, _⟩ := key q hq
    simp only [ex]; rfl
  · intro k hk t ht
    rw [h.2 k hk t ht]
    refine sumL_congr fun q hq => ?_
    obtain ⟨x, ex, hx⟩ := key q hq
    simp only [ex]
    exact (hx.2 k hk t ht).symm

/-- C43 (partial): the cost of a study is the sum of the costs of its networks. Missing: see
`C43_network_partial`. -/
theorem C43_study_partial {junk : Junk} {s : Study} {r : Result} {a : Analyzer} (hb : Built s)
    (hm : Mirrors s r) (ha : Analyzer.init junk s r = .ok a) (h0 : "" ∉ s.networks.map Prod.fst)
    (hst : storageCount s ≤ 1) :
    ∃ (c : NdArray) (C : String → NdArray), a.getCost none none = .ok c ∧
      (∀ p ∈ s.networks, a.getCost none (some p.1) = .ok (C p.1)) ∧
      Holds s c fun k t => sumL s.networks fun p => cell (C p.1) k t := by
  obtain ⟨c, e, h⟩ := cost_study hb hm ha h0 hst
  have key : ∀ p ∈ s.networks, ∃ x, a.getCost none (some p.1) = .ok x ∧ Holds s x fun k t =>
      sumL p.2.nodes fun q => nodeCost k (dispatchOf s r k) p.1 q.1 q.2 t +
        arrivalCost s k (dispatchOf s r k) p.1 q.1 t :=
    fun p hp => cost_network hb hm ha hp (fun h => h0 (h ▸ List.mem_map_of_mem hp)) hst
  refine ⟨c, fun g => ((a.getCost none (some g)).toOption).getD (NdArray.zeros 0 0), e, ?_, h.1, ?_⟩
  · intro p hp
    obtain ⟨x, ex, _⟩ := key p hp
    simp only [ex]; rfl
  · intro k hk t ht
    rw [h.2 k hk t ht]
    refine sumL_congr fun p hp => ?_
    obtain ⟨x, ex, hx⟩ := key p hp
    simp only [ex]
    exact (hx.2 k hk t ht).symm

/-! ### C28 -/

/-- the cost of the study, summed over time, is the cost of the dispatch -/
theorem cost_total {junk : Junk} {s : Study} {r : Result} {a : Analyzer} (hb : Built s)
    (hm : Mirrors s r) (ha : Analyzer.init junk s r = .ok a) (h0 : "" ∉ s.networks.map Prod.fst)
    (hst : storageCount s ≤ 1) :
    ∃ c, a.getCost none none = .ok c ∧ Full s c ∧ ∀ k < s.nbScn,
      (sumL (List.range s.horizon) fun t => cell c k t) = cost s k (dispatchOf s r k) := by
  obtain ⟨c, e, h⟩ := cost_study hb hm ha h0 hst
  refine ⟨c, e, h.1, ?_⟩
  intro k hk
  unfold cost
  refine sumL_congr fun t ht => ?_
  rw [h.2 k hk t (List.mem_range.mp ht)]
  obtain ⟨_, _, _, _, _, _, _, h6⟩ := init_ok ha
  have := arrivals_sum (Built.inv hb) (destConverter_ok h6).1 (fun _ => true)
    fun p => fval p.2.cost k t * (dispatchOf s r k).convDest p.1 t
  simp only [List.filter_true] at this
  rw [this]
  simp only [places, sumL_flatMap, sumL_map]
  rw [← sumL_add]
  refine sumL_congr fun p _ => ?_
  rw [← sumL_add]
  rfl

/-- C28 (partial): the cost the analyzer reports for a scenario, summed over time, is the value of the
objective for the answer of the solver. Missing: studies with several storages (see `C28_refuted`),
networks with an empty name and converters for which the analyzer raises. -/
theorem C28_partial {junk : Junk} {s : Study} {solver : Solver} {b : Benchmark} {r : Result}
    {a : Analyzer} (hs : Ready s) (hr : solveLp solver b s = .ok r)
    (ha : Analyzer.init junk s r = .ok a) (h0 : "" ∉ s.networks.map Prod.fst)
    (hst : storageCount s ≤ 1) :
    ∃ c, a.getCost none none = .ok c ∧ Full s c ∧ ∀ k < s.nbScn, Answers solver s k fun log x =>
      (sumL (List.range s.horizon) fun t => cell c k t) = Cmd.objective log x := by
  obtain rfl := Ready.result hs hr
  have hi := Built.inv hs.built
  obtain ⟨c, e, hF, h⟩ := cost_total hs.built (mirrors_result hi _ _) ha h0 hst
  refine ⟨c, e, hF, ?_⟩
  intro k hk steps log hlog
  rw [Ready.build hs hk] at hlog
  cases hlog
  rw [h k hk, ← objective_result hi hk]
  rfl

/-! ### C44 -/

theorem select_link {junk : Junk} {s : Study} {r : Result} {a : Analyzer} (hb : Built s)
    (hm : Mirrors s r) (ha : Analyzer.init junk s r = .ok a) (col g d : String)
    (P : String × String × ℕ × Link → Bool) (hcol : col ∈ ["node", "dest"])
    (hP : ∀ e k t, P e = (decide (Row.at (linkRow r e k t) col = .str d) && decide (e.1 = g))) :
    Analyzer.select a.link (fun i => a.link.cell col i = .str d &&
      a.link.cell "network" i = .str g) "used" =
      ((elements s (·.links)).filter P).flatMap fun e => (pairs s.nbScn s.horizon).map fun p =>
        (.num p.1, .num p.2, .num (cellAt (outNode r e.1 e.2.1).links e.2.2.1 (·.quantity) p.1 p.2)) := by
  obtain ⟨_, _, _, _, _, h4, _⟩ := init_ok ha
  obtain ⟨f, e1, e2, e3, e4⟩ := link_lists hb hm junk
  cases h4.symm.trans e1
  have has : ∀ c ∈ Tables.linkNames.map Prod.fst, a.link.Has c := by
    intro c hc
    unfold Frame.Has
    rw [e3]; exact hc
  have hcol' : a.link.Has col := has col (by revert hcol; simp [Tables.linkNames]; rintro (h | h) <;> simp [h])
  refine select_grid (V := fun e k t => cellAt (outNode r e.1 e.2.1).links e.2.2.1 (·.quantity) k t)
    (M := fun row => decide (Row.at row col = .str d) && decide (Row.at row "network" = .str g))
    (R := linkRow r) ?_ (has _ (by decide)) (has _ (by decide)) (has _ (by decide)) ?_ ?_
    (fun _ _ _ => rfl) (fun _ _ _ => rfl) (fun _ _ _ => rfl)
  · rw [e4.rows e2]; simp only [grid_eq]
  · intro i
    rw [Frame.at_row hcol', Frame.at_row (has "network" (by decide))]
  · intro e k t
    rw [hP e k t]
    congr 1
    rw [decide_eq_decide]
    simp [Row.at, linkRow, Dict.get?]

/-- C44: the balance of a node is what its links export less what links bring -/
theorem C44 {junk : Junk} {s : Study} {r : Result} {a : Analyzer} (hb : Built s)
    (hm : Mirrors s r) (ha : Analyzer.init junk s r = .ok a) {g d : String} {n : InputNode}
    (hn : HasNode s g d n) :
    ∃ b, a.getBalance d g = .ok b ∧ Holds s b fun k t =>
      sumI n.links (fun _ i => (dispatchOf s r k).link g d i t) - imports s (dispatchOf s r k) g d t := by
  have hi := Built.inv hb
  have hs := (init_ok ha).1
  unfold Analyzer.getBalance
  obtain ⟨b1, e1, h1⟩ := balancePart_ok hs (op := (· - ·)) (select_link hb hm ha "dest" g d
    (fun e => decide (e.2.2.2.dest = d) && decide (e.1 = g)) (by simp) (by
      intro e k t; simp [Row.at, linkRow, Dict.get?])) (fun x => sub_zero x) (ArrIs.zeros _ _)
  obtain ⟨b2, e2, h2⟩ := balancePart_ok hs (op := (· + ·)) (select_link hb hm ha "node" g d
    (fun e => decide (e.2.1 = d) && decide (e.1 = g)) (by simp) (by
      intro e k t; simp [Row.at, linkRow, Dict.get?])) (fun x => add_zero x) h1
  simp only [hs, e1, bind, Except.bind]
  refine ⟨b2, e2, (h2.congr ?_).holds⟩
  intro k _ t _
  have x1 : sumL ((elements s (·.links)).filter fun e => decide (e.2.1 = d) && decide (e.1 = g))
      (fun e => cellAt (outNode r e.1 e.2.1).links e.2.2.1 (·.quantity) k t) =
      sumI n.links fun _ i => (dispatchOf s r k).link g d i t := by
    rw [elements_sum s (·.links) (fun x => decide (x.2 = d) && decide (x.1 = g))]
    have : (places s).filter (fun x => decide (x.2.1 = d) && decide (x.1 = g)) = [(g, d, n)] := by
      rw [← places_node hi hn]
      refine List.filter_congr ?_
      intro x _
      rw [Bool.eq_iff_iff]
      simp only [scope, Option.isNone_some, Bool.false_or, Bool.and_eq_true, decide_eq_true_eq,
        Option.some.injEq]
      exact ⟨fun h => ⟨h.2.symm, h.1.symm⟩, fun h => ⟨h.2.symm, h.1.symm⟩⟩
    rw [this]
    simp [sumL, dispatchOf]
  have x2 : sumL ((elements s (·.links)).filter fun e => decide (e.2.2.2.dest = d) && decide (e.1 = g))
      (fun e => cellAt (outNode r e.1 e.2.1).links e.2.2.1 (·.quantity) k t) =
      imports s (dispatchOf s r k) g d t := by
    unfold imports elements
    rw [sumL_filter, sumL_flatMap, sumL_filter]
    refine sumL_congr fun p _ => ?_
    rw [sumL_flatMap]
    by_cases h : p.1 = g
    · rw [if_pos (by simpa using h)]
      refine sumL_congr fun q _ => ?_
      rw [sumL_map, sumI_eq]
      refine sumL_congr fun l _ => ?_
      simp [h, dispatchOf]
    · rw [if_neg (by simpa using h)]
      refine sumL_eq_zero fun q _ => ?_
      rw [sumL_map]
      refine sumL_eq_zero fun l _ => ?_
      simp [h]
  rw [x1, x2]
  ring

/-- C44: the balances of the nodes of a network sum to zero -/
theorem C44_zero {junk : Junk} {s : Study} {r : Result} {a : Analyzer} (hb : Built s)
    (hm : Mirrors s r) (ha : Analyzer.init junk s r = .ok a) {g : String} {net : InputNetwork}
    (hg : (g, net) ∈ s.networks) :
    ∃ B : String → NdArray, (∀ q ∈ net.nodes, a.getBalance q.1 g = .ok (B q.1)) ∧
      ∀ k < s.nbScn, ∀ t < s.horizon, (sumL net.nodes fun q => cell (B q.1) k t) = 0 := by
  have hi := Built.inv hb
  have key : ∀ q ∈ net.nodes, ∃ b, a.getBalance q.1 g = .ok b ∧ Holds s b fun k t =>
      sumI q.2.links (fun _ i => (dispatchOf s r k).link g q.1 i t) -
        imports s (dispatchOf s r k) g q.1 t := fun q hq => C44 hb hm ha ⟨net, hg, hq⟩
  refine ⟨fun d => ((a.getBalance d g).toOption).getD (NdArray.zeros 0 0), ?_, ?_⟩
  · intro q hq
    obtain ⟨x, ex, _⟩ := key q hq
    simp only [ex]; rfl
  · intro k hk t ht
    have h1 : (sumL net.nodes fun q => cell (((a.getBalance q.1 g).toOption).getD (NdArray.zeros 0 0)) k t) =
        sumL net.nodes fun q => sumI q.2.links (fun _ i => (dispatchOf s r k).link g q.1 i t) -
          imports s (dispatchOf s r k) g q.1 t := by
      refine sumL_congr fun q hq => ?_
      obtain ⟨x, ex, hx⟩ := key q hq
      simp only [ex]
      exact hx.2 k hk t ht
    rw [h1, sumL_sub]
    have h2 : ∀ d, imports s (dispatchOf s r k) g d t = sumL net.nodes fun q =>
        sumI q.2.links fun l i => if l.dest = d then (dispatchOf s r k).link g q.1 i t else 0 := by
      intro d
      unfold imports
      have : s.networks.filter (fun p => decide (p.1 = g)) = [(g, net)] := by
        have e := flatMap_single (f := fun p : String × InputNetwork => if p.1 = g then [p] else [])
          Prod.fst hi.names.networks hg fun b _ hb => if_neg hb
        rw [if_pos rfl] at e
        rw [← e]
        clear e h1 key
        induction s.networks with
        | nil => rfl
        | cons q l ih => rw [List.filter_cons, List.flatMap_cons, ih]; split_ifs <;> simp_all
      rw [this]
      simp [sumL]
    have h3 : (sumL net.nodes fun q => imports s (dispatchOf s r k) g q.1 t) =
        sumL net.nodes fun q => sumI q.2.links fun _ i => (dispatchOf s r k).link g q.1 i t := by
      simp only [h2]
      rw [sumL_swap]
      refine sumL_congr fun q hq => ?_
      simp only [sumI_eq]
      rw [sumL_swap]
      refine sumL_congr fun l hl => ?_
      exact sumL_pick (hi.names.nodes (g, net) hg)
        (hi.links g net hg q.1 q.2 hq l.1 (List.fst_mem_of_mem_zipIdx hl)) _
    rw [h3, sub_self]

/-! ### C45 -/

theorem select_production {junk : Junk} {s : Study} {r : Result} {a : Analyzer} (hb : Built s)
    (hm : Mirrors s r) (ha : Analyzer.init junk s r = .ok a) (col g : String)
    (V : String × String × ℕ × Production → ℕ → ℕ → ℚ) (hcol : col ∈ Tables.productionNames.map Prod.fst)
    (hV : ∀ e k t, Row.at (productionRow r e k t) col = .num (V e k t)) :
    Analyzer.select a.production (fun i => a.production.cell "network" i = .str g) col =
      ((elements s (·.productions)).filter fun e => decide (e.1 = g)).flatMap fun e =>
        (pairs s.nbScn s.horizon).map fun p => (.num p.1, .num p.2, .num (V e p.1 p.2)) := by
  obtain ⟨_, _, _, h4, _⟩ := init_ok ha
  obtain ⟨f, e1, e2, e3, e4⟩ := production_lists hb hm junk
  cases h4.symm.trans e1
  have has : ∀ c ∈ Tables.productionNames.map Prod.fst, a.production.Has c := by
    intro c hc
    unfold Frame.Has
    rw [e3]; exact hc
  refine select_grid (V := V) (M := fun row => decide (Row.at row "network" = .str g))
    (R := productionRow r) ?_ (has _ (by decide)) (has _ (by decide)) (has _ hcol) ?_ ?_
    (fun _ _ _ => rfl) (fun _ _ _ => rfl) hV
  · rw [e4.rows e2]; simp only [grid_eq]
  · intro i
    rw [Frame.at_row (has "network" (by decide))]
  · intro e k t
    rw [decide_eq_decide]
    simp [Row.at, productionRow, Dict.get?]

theorem select_consumption {junk : Junk} {s : Study} {r : Result} {a : Analyzer} (hb : Built s)
    (hm : Mirrors s r) (ha : Analyzer.init junk s r = .ok a) (col g : String)
    (V : String × String × ℕ × Consumption → ℕ → ℕ → ℚ) (hcol : col ∈ Tables.consumptionNames.map Prod.fst)
    (hV : ∀ e k t, Row.at (consumptionRow r e k t) col = .num (V e k t)) :
    Analyzer.select a.consumption (fun i => a.consumption.cell "network" i = .str g) col =
      ((elements s (·.consumptions)).filter fun e => decide (e.1 = g)).flatMap fun e =>
        (pairs s.nbScn s.horizon).map fun p => (.num p.1, .num p.2, .num (V e p.1 p.2)) := by
  obtain ⟨_, _, h4, _⟩ := init_ok ha
  obtain ⟨f, e1, e2, e3, e4⟩ := consumption_lists hb hm junk
  cases h4.symm.trans e1
  have has : ∀ c ∈ Tables.consumptionNames.map Prod.fst, a.consumption.Has c := by
    intro c hc
    unfold Frame.Has
    rw [e3]; exact hc
  refine select_grid (V := V) (M := fun row => decide (Row.at row "network" = .str g))
    (R := consumptionRow r) ?_ (has _ (by decide)) (has _ (by decide)) (has _ hcol) ?_ ?_
    (fun _ _ _ => rfl) (fun _ _ _ => rfl) hV
  · rw [e4.rows e2]; simp only [grid_eq]
  · intro i
    rw [Frame.at_row (has "network" (by decide))]
  · intro e k t
    rw [decide_eq_decide]
    simp [Row.at, consumptionRow, Dict.get?]

/-- C45: what remains available in a network is unused production less unserved consumption -/
theorem C45 {junk : Junk} {s : Study} {r : Result} {a : Analyzer} (hb : Built s)
    (hm : Mirrors s r) (ha : Analyzer.init junk s r = .ok a) {g : String} {net : InputNetwork}
    (hg : (g, net) ∈ s.networks) :
    ∃ c, a.getRac g = .ok c ∧ Holds s c fun k t =>
      (sumL net.nodes fun q => sumI q.2.productions fun x i =>
        val x.quantity k t - (dispatchOf s r k).prod g q.1 i t) -
      sumL net.nodes fun q => sumI q.2.consumptions fun _ i => (dispatchOf s r k).lol g q.1 i t := by
  have hi := Built.inv hb
  have hs := (init_ok ha).1
  have hpl : (places s).filter (fun x => decide (x.1 = g)) = net.nodes.map fun q => (g, q.1, q.2) := by
    rw [← places_network hi hg]
    refine List.filter_congr ?_
    intro x _
    rw [Bool.eq_iff_iff]
    simp only [scope, Option.isNone_some, Option.isNone_none, Bool.true_or, Bool.and_true,
      Bool.false_or, decide_eq_true_eq, Option.some.injEq]
    exact eq_comm
  obtain ⟨c1, e1, h1⟩ := racPart_ok hs (select_production hb hm ha "used" g
    (fun e k t => cellAt (outNode r e.1 e.2.1).productions e.2.2.1 (·.quantity) k t) (by decide)
    fun _ _ _ => rfl)
  obtain ⟨c2, e2, h2⟩ := racPart_ok hs (select_production hb hm ha "avail" g
    (fun e k t => val e.2.2.2.quantity k t) (by decide) fun _ _ _ => rfl)
  obtain ⟨c3, e3, h3⟩ := racPart_ok hs (select_consumption hb hm ha "asked" g
    (fun e k t => val e.2.2.2.quantity k t) (by decide) fun _ _ _ => rfl)
  obtain ⟨c4, e4, h4⟩ := racPart_ok hs (select_consumption hb hm ha "given" g
    (fun e k t => cellAt (outNode r e.1 e.2.1).consumptions e.2.2.1 (·.quantity) k t) (by decide)
    fun _ _ _ => rfl)
  obtain ⟨x, ex, hx⟩ := h2.zip h1 (· - ·)
  obtain ⟨y, ey, hy⟩ := h3.zip h4 (· - ·)
  obtain ⟨z, ez, hz⟩ := hx.zip hy (· - ·)
  unfold Analyzer.getRac
  simp only [e1, e2, e3, e4, ex, ey, ez, bind, Except.bind]
  refine ⟨z, rfl, (hz.congr ?_).holds⟩
  intro k _ t _
  rw [elements_sum s (·.productions) (fun x => decide (x.1 = g)),
    elements_sum s (·.productions) (fun x => decide (x.1 = g)),
    elements_sum s (·.consumptions) (fun x => decide (x.1 = g)),
    elements_sum s (·.consumptions) (fun x => decide (x.1 = g)), hpl]
  simp only [sumL_map]
  rw [← sumL_sub, ← sumL_sub]
  congr 1
  · refine sumL_congr fun q hq => ?_
    simp only [sumI_eq]
    rw [← sumL_sub]
    rfl
  · refine sumL_congr fun q hq => ?_
    simp only [sumI_eq]
    rw [← sumL_sub]
    refine sumL_congr fun c hc => ?_
    simp only [dispatchOf, inNode_eq hi ⟨net, hg, hq⟩, List.mk_mem_zipIdx_iff_getElem?.mp hc]

/-! ### A concrete case -/

example : ∃ a, Analyzer.init (fun _ _ _ => .nan) anStudy anResult = .ok a :=
  init_total anStudy_built anResult_mirrors _ anStudy_complete anStudy_one
    (by decide +kernel)

/-- a network of the example -/
def anNet (g : String) : InputNetwork := (anStudy.networks.get? g).getD ⟨[]⟩

theorem anNet_mem (g : String) (h : (anStudy.networks.get? g).isSome = true) :
    (g, anNet g) ∈ anStudy.networks := by
  obtain ⟨n, hn⟩ := Option.isSome_iff_exists.mp h
  unfold anNet
  rw [hn]
  exact Dict.mem_of_get? hn

theorem anNode_b : HasNode anStudy "elec" "b" (inNode anStudy "elec" "b") :=
  hasNode_inNode (by decide +kernel)

/-- the node has a load, a storage and a converter that gives to it -/
example : anAnalyzer.elementsInside (some "b") (some "elec") = .ok [1, 0, 1, 0, 0, 1] := by
  rw [C46_node anStudy_built anAnalyzer_init anNode_b]
  decide +kernel

example : anAnalyzer.elementsInside none none = .ok [2, 2, 1, 1, 1, 1] := by
  rw [C46_study_partial anStudy_built anAnalyzer_init (by decide +kernel)]
  decide +kernel

/-- at the second time step of the second scenario: 1 unserved at 100, level 6 at 1, 1 from the converter
at 2 -/
example : ∃ c, anAnalyzer.getCost (some "b") (some "elec") = .ok c ∧ cell c 1 1 = 108 := by
  obtain ⟨c, h, _, h2⟩ := C42_partial anStudy_built anResult_mirrors anAnalyzer_init anNode_b
    fun _ => by decide +kernel
  exact ⟨c, h, by rw [h2 1 (by decide +kernel) 1 (by decide +kernel)]; decide +kernel⟩

example : ∃ (c : NdArray) (C : String → NdArray), anAnalyzer.getCost none none = .ok c ∧
    anAnalyzer.getCost none (some "elec") = .ok (C "elec") ∧
    anAnalyzer.getCost none (some "gas") = .ok (C "gas") ∧
    cell c 1 1 = cell (C "elec") 1 1 + (cell (C "gas") 1 1 + 0) := by
  obtain ⟨c, C, h, hC, _, h2⟩ := C43_study_partial anStudy_built anResult_mirrors anAnalyzer_init
    (by decide +kernel) (by decide +kernel)
  refine ⟨c, C, h, hC _ (anNet_mem "elec" (by decide +kernel)),
    hC _ (anNet_mem "gas" (by decide +kernel)), ?_⟩
  have e : anStudy.networks.map Prod.fst = ["elec", "gas"] := by decide +kernel
  have e' := sumL_map anStudy.networks Prod.fst fun g => cell (C g) 1 1
  rw [h2 1 (by decide +kernel) 1 (by decide +kernel)]
  refine Eq.trans e'.symm ?_
  rw [e]
  rfl

/-- the link exports 3 -/
example : ∃ b, anAnalyzer.getBalance "b" "elec" = .ok b ∧ cell b 1 1 = -3 := by
  obtain ⟨c, h, _, h2⟩ := C44 anStudy_built anResult_mirrors anAnalyzer_init anNode_b
  exact ⟨c, h, by rw [h2 1 (by decide +kernel) 1 (by decide +kernel)]; decide +kernel⟩

/-- 16 available, 5 used, 1 unserved in each node -/
example : ∃ c, anAnalyzer.getRac "elec" = .ok c ∧ cell c 1 1 = 9 := by
  obtain ⟨c, h, _, h2⟩ := C45 anStudy_built anResult_mirrors anAnalyzer_init
    (anNet_mem "elec" (by decide +kernel))
  exact ⟨c, h, by rw [h2 1 (by decide +kernel) 1 (by decide +kernel)]; decide +kernel⟩

theorem anStudy_ready : Ready anStudy :=
  ⟨anStudy_built, anStudy_complete, RatiosNonzero.usable anStudy_ratios, cleanSources_of (by decide +kernel)⟩

/-- the hypotheses of `C28_partial` are met, whatever the solver answers -/
example (solver : Solver) (b : Benchmark) : ∃ r a, solveLp solver b anStudy = .ok r ∧
    Analyzer.init (fun _ _ _ => .nan) anStudy r = .ok a ∧ "" ∉ anStudy.networks.map Prod.fst ∧
    storageCount anStudy ≤ 1 := by
  have hr := Ready.solve anStudy_ready solver b
  obtain ⟨a, ha⟩ := init_total anStudy_built (mirrors_result (Built.inv anStudy_built) _ _) (fun _ _ _ => .nan)
    anStudy_complete anStudy_one (by decide +kernel)
  exact ⟨_, a, hr, ha, by decide +kernel, by decide +kernel⟩

/-! ### Refutations -/

def costStorCalls : List Call :=
  [.studyNetwork "n", .netNode 0 "a",
   .nodeStorage 0 ⟨"s1", .num 10, .num 1, .num 1, .num 1, 5, .num 1⟩, .netNode 0 "b",
   .nodeStorage 0 ⟨"s2", .num 10, .num 1, .num 1, .num 1, 5, .num 1⟩]

/-- two nodes with a storage each, at a cost -/
def costStor : Study := ((World.start 1 1).run costStorCalls).study

theorem costStor_built : Built costStor :=
  ⟨1, 1, costStorCalls, rawCalls_of (by decide +kernel), rfl⟩

theorem costStor_ready : Ready costStor where
  built := costStor_built
  complete := by unfold CompleteConverters; decide +kernel
  ratios := RatiosNonzero.usable (by unfold RatiosNonzero; decide +kernel)
  clean := cleanSources_of (by decide +kernel)

/-- storages stay at their level -/
def costAnswer : Var → ℚ
  | .cap .. => 5
  | _ => 0

theorem costAnswer_feasible : Answers (fun _ => costAnswer) costStor 0 Cmd.Feasible := by
  intro steps log h
  obtain rfl := logOf_eq h
  exact Cmd.feasible_of_check (by decide +kernel)

/-- what the analyzer computes after solving -/
def analyzed (s : Study) (X : Vals) (f : Analyzer → Except PyErr NdArray) : Except PyErr (List ℚ) := do
  let a ← Analyzer.init (fun _ _ _ => .nan) s (resultAll s X ⟨[], [], 0, 0⟩)
  let c ← f a
  pure c.data

theorem analyzed_cases {s : Study} {X : Vals} {f : Analyzer → Except PyErr NdArray}
    {x : Except PyErr (List ℚ)} (h : analyzed s X f = x) :
    (∃ e, Analyzer.init (fun _ _ _ => .nan) s (resultAll s X ⟨[], [], 0, 0⟩) = .error e ∧ x = .error e) ∨
    ∃ a, Analyzer.init (fun _ _ _ => .nan) s (resultAll s X ⟨[], [], 0, 0⟩) = .ok a ∧
      ((∃ e, f a = .error e ∧ x = .error e) ∨ ∃ c, f a = .ok c ∧ x = .ok c.data) := by
  subst h
  unfold analyzed
  cases h1 : Analyzer.init (fun _ _ _ => .nan) s (resultAll s X ⟨[], [], 0, 0⟩) with
  | error e => exact .inl ⟨e, rfl, rfl⟩
  | ok a =>
    refine .inr ⟨a, rfl, ?_⟩
    simp only [bind, Except.bind]
    cases h2 : f a with
    | error e => exact .inl ⟨e, rfl, rfl⟩
    | ok c => exact .inr ⟨c, rfl, rfl⟩

def emptyNameCalls : List Call :=
  [.studyNetwork "elec", .netNode 0 "a", .nodeConsumption 0 "load" (.num 100) (.num 10), .studyNetwork "", .netNode 1 "a",
   .nodeProduction 1 "gas" (.num 1) (.num 20)]

/-- a study whose second network has an empty name -/
def emptyName : Study := ((World.start 1 1).run emptyNameCalls).study

theorem emptyName_built : Built emptyName := ⟨1, 1, emptyNameCalls, rawCalls_of (by decide +kernel), rfl⟩

/-- the hypotheses of `C46_refuted` are met, whatever the solver answers -/
example (X : Vals) (b : Benchmark) : ∃ a, Analyzer.init (fun _ _ _ => .nan) emptyName (resultAll emptyName X b) = .ok a ∧
    a.elementsInside none none = .error .keyError ∧ a.elementsInside none (some "elec") = .ok [1, 0, 0, 0, 0, 0] := by
  obtain ⟨a, ha⟩ := init_total emptyName_built (mirrors_result (Built.inv emptyName_built) X b) (fun _ _ _ => .nan)
    (by unfold CompleteConverters; decide +kernel) (by decide +kernel) (by decide +kernel)
  have hg : ("elec", (emptyName.networks.get? "elec").getD ⟨[]⟩) ∈ emptyName.networks := by decide +kernel
  refine ⟨a, ha, (C46_refuted emptyName_built ha (by decide +kernel)).2.1, ?_⟩
  rw [C46_network_partial emptyName_built ha hg (by decide)]
  decide +kernel

/-- C42 refuted: with two storages, the cost of the node of the first one cannot be computed -/
theorem C42_refuted : ∃ s r junk a, Built s ∧ Mirrors s r ∧ Analyzer.init junk s r = .ok a ∧
    (∃ n, HasNode s "n" "a" n) ∧ a.getCost (some "a") (some "n") = .error .valueError := by
  obtain ⟨a, ha⟩ : ∃ a, Analyzer.init (fun _ _ _ => .nan) costStor
      (resultAll costStor (fun _ => costAnswer) ⟨[], [], 0, 0⟩) = .ok a := by
    have h : analyzed costStor (fun _ => costAnswer) (fun a => a.getCost none none) = .ok [5] := by
      decide +kernel
    rcases analyzed_cases h with ⟨e, _, h1⟩ | ⟨a, h1, _⟩
    · cases h1
    · exact ⟨a, h1⟩
  refine ⟨costStor, _, _, a, costStor_built, mirrors_result (Built.inv costStor_built) _ _, ha,
    ⟨_, hasNode_inNode (by decide +kernel)⟩, ?_⟩
  have h : analyzed costStor (fun _ => costAnswer) (fun a => a.getCost (some "a") (some "n")) =
      .error .valueError := by decide +kernel
  rcases analyzed_cases h with ⟨e, h1, _⟩ | ⟨a', h1, h2⟩
  · rw [ha] at h1; cases h1
  · rw [ha] at h1
    cases h1
    rcases h2 with ⟨e, h2, h3⟩ | ⟨c, _, h3⟩
    · cases h3; exact h2
    · cases h3

/-- C28 refuted: with two storages, the objective is 10 and the analyzer reports 5 -/
theorem C28_refuted : ∃ s solver b r junk a c, Ready s ∧ 0 < s.nbScn ∧
    Answers solver s 0 Cmd.Feasible ∧ solveLp solver b s = .ok r ∧ Analyzer.init junk s r = .ok a ∧
    a.getCost none none = .ok c ∧ c.data = [5] ∧ Answers solver s 0 fun log x => Cmd.objective log x = 10 := by
  have h : analyzed costStor (valsOf (fun _ => costAnswer) costStor) (fun a => a.getCost none none) =
      .ok [5] := by decide +kernel
  rcases analyzed_cases h with ⟨e, _, h1⟩ | ⟨a, h1, h2⟩
  · cases h1
  rcases h2 with ⟨e, _, h2⟩ | ⟨c, h2, h3⟩
  · cases h2
  refine ⟨costStor, fun _ => costAnswer, ⟨[], [], 0, 0⟩, _, _, a, c, costStor_ready, by decide +kernel,
    costAnswer_feasible, Ready.solve costStor_ready _ _, h1, h2, ?_, ?_⟩
  · exact (Except.ok.inj h3).symm
  · intro steps log hl
    obtain rfl := logOf_eq hl
    decide +kernel

/-! ### The theorems applied to concrete cases -/

example (solver : Solver) (b : Benchmark) : ∃ r a, solveLp solver b anStudy = .ok r ∧
    Analyzer.init (fun _ _ _ => .nan) anStudy r = .ok a ∧ ∃ c, a.getCost none none = .ok c := by
  have hr := Ready.solve anStudy_ready solver b
  obtain ⟨a, ha⟩ := init_total anStudy_built (mirrors_result (Built.inv anStudy_built) _ _) (fun _ _ _ => .nan)
    anStudy_complete anStudy_one (by decide +kernel)
  obtain ⟨c, hc, _⟩ := C28_partial anStudy_ready hr ha (by decide +kernel) (by decide +kernel)
  exact ⟨_, a, hr, ha, c, hc⟩
example := C43_network_partial anStudy_built anResult_mirrors anAnalyzer_init (anNet_mem "elec" (by decide +kernel)) (by decide)
  (by decide +kernel)
example := C44_zero anStudy_built anResult_mirrors anAnalyzer_init (anNet_mem "elec" (by decide +kernel))

def defaultCalls : List Call :=
  [.studyNetwork "default", .netNode 0 "a", .nodeConsumption 0 "load" (.num 100) (.num 10),
   .nodeStorage 0 ⟨"cell", .num 10, .num 1, .num 1, .num 1, 5, .num 1⟩, .nodeProduction 0 "gas" (.num 1) (.num 20),
   .netNode 0 "b", .netLink 0 "a" "b" (.num 1) (.num 2)]

/-- a study with the network that is meant when none is named -/
def defaultStudy : Study := ((World.start 1 1).run defaultCalls).study

theorem defaultStudy_built : Built defaultStudy := ⟨1, 1, defaultCalls, rawCalls_of (by decide +kernel), rfl⟩

theorem defaultStudy_a : HasNode defaultStudy "default" "a" (inNode defaultStudy "default" "a") := hasNode_inNode (by decide +kernel)

example (X : Vals) (b : Benchmark) : ∃ a, Analyzer.init (fun _ _ _ => .nan) defaultStudy (resultAll defaultStudy X b) = .ok a ∧
    a.elementsInside (some "a") none = .ok [1, 1, 1, 1, 0, 0] ∧ ∃ c, a.getCost (some "a") none = .ok c := by
  have hm := mirrors_result (Built.inv defaultStudy_built) X b
  obtain ⟨a, ha⟩ := init_total defaultStudy_built hm (fun _ _ _ => .nan)
    (by unfold CompleteConverters; decide +kernel) (by decide +kernel) (by decide +kernel)
  refine ⟨a, ha, ?_, ?_⟩
  · rw [C46_default defaultStudy_built ha defaultStudy_a (by decide)]; decide +kernel
  · obtain ⟨c, hc, _⟩ := C42_default_partial defaultStudy_built hm ha defaultStudy_a (by decide) (fun _ => by decide +kernel)
    exact ⟨c, hc⟩

end Hadar.Props
