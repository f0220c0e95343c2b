import Verif.Proofs.Missing

/-!
# C137: charts and totals of what a study does not have
-/

namespace Hadar.Props

open Hadar Spec

variable {junk : Junk} {s : Study} {r : Result} {a : Analyzer}

/-- C137 (partial, elements): the charts of an element that the study does not have all raise. Missing: balances and margins
(`C137_balance_refuted`, `C137_rac_refuted`), maps (`C137_map_refuted`) and stacks (`C137_stack_refuted`). -/
theorem C137_element_partial (hb : Built s) (hm : Mirrors s r) (ha : Analyzer.init junk s r = .ok a) {x : Viewer.Item}
    (hk : x.kind.isElement = true) (hr : Reliable s x.kind) (hno : ¬ InStudy s x.network x.node x.kind x.name)
    {β : Type} (draw : List ℚ → List ℚ → Except PyErr β) :
    (x.timeline a = .error .keyError ∨ x.timeline a = .error .zeroDivisionError) ∧
    (∀ t scn, t.isSome ≠ scn.isSome → x.monotone a t scn = .error .keyError) ∧
    (∀ t scn, ¬ (t.isSome ∧ scn.isSome) → x.gaussianWith draw a t scn = .error .keyError) ∧
    (∀ t scn, ¬ (t.isSome ∧ scn.isSome) → x.gaussianConverterWith draw a t scn = .error .keyError) := by
  have hask : ∀ (calls : List (IndexKind × IndexArg)), (calls.map Prod.fst).Perm [.time, .scn] →
      (∀ c ∈ calls, c.2 = .none ∨ ∃ i : ℤ, c.2 = .one (.num i)) → (∃ c ∈ calls, c.2 = .none) →
      x.ask a calls = .error .keyError ∨ ∃ pt, x.ask a calls = .ok pt ∧ pt.lines = [] ∧
      ∀ c ∈ calls, c.2 = .none → c.1.column ∈ pt.levels :=
    fun calls h1 h2 h3 => ask_missing hb hm ha hk h1 h2 h3 hr (.inl hno)
  refine ⟨?_, ?_, ?_, ?_⟩
  · unfold Viewer.Item.timeline
    rcases hask [(.scn, .none), (.time, .none)] (by decide) (by simp) (by simp) with h | ⟨pt, h1, h2, h3⟩
    · rw [h]; exact .inl rfl
    · rw [h1]
      refine .inr ?_
      show Viewer.timelineChart pt x.col = _
      unfold Viewer.timelineChart Viewer.levelValues Analyzer.level
      rw [if_pos (by simpa using (show "scn" ∈ pt.levels from h3 (.scn, .none) (by simp) rfl)), h2]
      rfl
  · intro t scn hts
    unfold Viewer.Item.monotone
    cases t with
    | none =>
      cases scn with
      | none => exact absurd rfl hts
      | some k =>
        rcases hask [(.scn, .one (.num k)), (.time, .none)] (by simp only [List.map_cons, List.map_nil]; decide)
          (by simp) (by simp) with h | ⟨pt, h1, h2, _⟩
        · simp only [h]; rfl
        · simp only [h1]
          show (x.shown pt >>= fun y => _) = _
          rw [shown_nil h2]; rfl
    | some t =>
      cases scn with
      | some k => exact absurd rfl hts
      | none =>
        rcases hask [(.time, .one (.num t)), (.scn, .none)] (by simp only [List.map_cons, List.map_nil]; decide)
          (by simp) (by simp) with h | ⟨pt, h1, h2, _⟩
        · simp only [h]; rfl
        · simp only [h1]
          show (x.shown pt >>= fun y => _) = _
          rw [shown_nil h2]; rfl
  · intro t scn hts
    unfold Viewer.Item.gaussianWith
    cases t with
    | none =>
      rcases hask [(.scn, Viewer.indexArg scn), (.time, .none)] (by simp only [List.map_cons, List.map_nil]; decide)
        (by cases scn <;> simp [Viewer.indexArg]) (by simp) with h | ⟨pt, h1, h2, _⟩
      · simp only [h]; rfl
      · simp only [h1]
        show (Viewer.column pt.lines x.col >>= fun y => _) = _
        rw [h2]; rfl
    | some t =>
      cases scn with
      | some k => exact absurd ⟨rfl, rfl⟩ hts
      | none =>
        rcases hask [(.time, .one (.num t)), (.scn, .none)] (by simp only [List.map_cons, List.map_nil]; decide)
          (by simp) (by simp) with h | ⟨pt, h1, h2, _⟩
        · simp only [h]; rfl
        · simp only [h1]
          show (Viewer.column pt.lines x.col >>= fun y => _) = _
          rw [h2]; rfl
  · intro t scn hts
    unfold Viewer.Item.gaussianConverterWith
    have hnb : Viewer.notBoth t scn = .ok () := by unfold Viewer.notBoth; rw [if_neg hts]
    rcases hask [(.time, Viewer.indexArg t), (.scn, .none)] (by simp only [List.map_cons, List.map_nil]; decide)
      (by cases t <;> simp [Viewer.indexArg]) (by simp) with h | ⟨pt, h1, h2, _⟩
    · simp only [h, hnb]; rfl
    · simp only [h1, hnb]
      show (Viewer.column pt.lines x.col >>= fun y => _) = _
      rw [h2]; rfl

/-- C137 (partial, positions): the charts of an element in a scenario or at a time that the study does not have raise; negative
positions do not count from the end. Missing: charts of converters in a scenario (`C67_converter_refuted`), maps and stacks. -/
theorem C137_position_partial (hb : Built s) (hm : Mirrors s r) (ha : Analyzer.init junk s r = .ok a) {x : Viewer.Item}
    (hk : x.kind.isElement = true) (hr : Reliable s x.kind) {β : Type} (draw : List ℚ → List ℚ → Except PyErr β) :
    (∀ t, ¬ Position s.horizon t → x.monotone a (some t) none = .error .keyError ∧
      x.gaussianWith draw a (some t) none = .error .keyError ∧
      x.gaussianConverterWith draw a (some t) none = .error .keyError) ∧
    (∀ k, ¬ Position s.nbScn k → x.monotone a none (some k) = .error .keyError ∧
      x.gaussianWith draw a none (some k) = .error .keyError) := by
  constructor
  · intro t ht
    have := ask_missing hb hm ha hk (calls := [(.time, .one (.num t)), (.scn, .none)])
      (by simp only [List.map_cons, List.map_nil]; decide) (by simp) (by simp) hr
      (.inr ⟨(.time, .one (.num t)), by simp, t, rfl, .inl ⟨rfl, ht⟩⟩)
    rcases this with h | ⟨pt, h1, h2, _⟩
    · refine ⟨?_, ?_, ?_⟩
      · unfold Viewer.Item.monotone
        simp only [h]; rfl
      · unfold Viewer.Item.gaussianWith
        simp only [h]; rfl
      · unfold Viewer.Item.gaussianConverterWith
        simp only [Viewer.indexArg, h]; rfl
    · refine ⟨?_, ?_, ?_⟩
      · unfold Viewer.Item.monotone
        simp only [h1]
        show (x.shown pt >>= fun y => _) = _
        rw [shown_nil h2]; rfl
      · unfold Viewer.Item.gaussianWith
        simp only [h1]
        show (Viewer.column pt.lines x.col >>= fun y => _) = _
        rw [h2]; rfl
      · unfold Viewer.Item.gaussianConverterWith
        simp only [Viewer.indexArg, h1]
        show (Viewer.column pt.lines x.col >>= fun y => _) = _
        rw [h2]; rfl
  · intro k hk'
    have := ask_missing hb hm ha hk (calls := [(.scn, .one (.num k)), (.time, .none)])
      (by simp only [List.map_cons, List.map_nil]; decide) (by simp) (by simp) hr
      (.inr ⟨(.scn, .one (.num k)), by simp, k, rfl, .inr ⟨rfl, hk'⟩⟩)
    rcases this with h | ⟨pt, h1, h2, _⟩
    · refine ⟨?_, ?_⟩
      · unfold Viewer.Item.monotone
        simp only [h]; rfl
      · unfold Viewer.Item.gaussianWith
        simp only [Viewer.indexArg, h]; rfl
    · refine ⟨?_, ?_⟩
      · unfold Viewer.Item.monotone
        simp only [h1]
        show (x.shown pt >>= fun y => _) = _
        rw [shown_nil h2]; rfl
      · unfold Viewer.Item.gaussianWith
        simp only [Viewer.indexArg, h1]
        show (Viewer.column pt.lines x.col >>= fun y => _) = _
        rw [h2]; rfl

/-- C137 (partial, candles): candles of a storage that is not there, or in a scenario that is not there, raise -/
theorem C137_candles_partial (hb : Built s) (hm : Mirrors s r) (ha : Analyzer.init junk s r = .ok a) {g d name : String}
    {k : ℤ} (hr : Reliable s .stor) (hno : ¬ InStudy s g d .stor name ∨ ¬ Position s.nbScn k) :
    Viewer.candles a g d name k = .error .keyError := by
  have := ask_missing hb hm ha (x := ⟨g, d, .stor, name, ""⟩) rfl (calls := [(.scn, .one (.num k)), (.time, .none)])
    (by simp only [List.map_cons, List.map_nil]; decide) (by simp) (by simp) hr (by
      rcases hno with h | h
      · exact .inl h
      · exact .inr ⟨(.scn, .one (.num k)), by simp, k, rfl, .inr ⟨rfl, h⟩⟩)
  unfold Viewer.Item.ask at this
  unfold Viewer.candles
  rcases this with h | ⟨pt, h1, h2, _⟩
  · simp only at h
    rw [h]; rfl
  · simp only at h1
    rw [h1]
    simp only [bind, Except.bind, h2]
    rfl

/-- nothing of this name in the study -/
theorem ghost_absent : ¬ InStudy anStudy "elec" "a" .prod "ghost" := by
  intro h
  have key : ∀ x, InStudy anStudy "elec" "a" .prod x → x ∈ ((inNode anStudy "elec" "a").productions.map (·.name)) := by
    intro x hx
    cases hx with
    | prod hn hc =>
      rw [inNode_eq (Built.inv anStudy_built) hn]
      exact List.mem_map_of_mem hc
  have := key _ h
  revert this
  decide +kernel

/-- the charts of a production that is not there -/
example : (⟨"elec", "a", .prod, "ghost", "used"⟩ : Viewer.Item).monotone anAnalyzer (some 0) none = .error .keyError :=
  (C137_element_partial anStudy_built anResult_mirrors anAnalyzer_init rfl (anStudy_reliable _) ghost_absent
    Viewer.gaussianChart).2.1 _ _ (by decide)

/-- the production `nuke` is there, the last time counted from the end is not one -/
example : (⟨"elec", "a", .prod, "nuke", "used"⟩ : Viewer.Item).monotone anAnalyzer (some (-1)) none = .error .keyError :=
  ((C137_position_partial anStudy_built anResult_mirrors anAnalyzer_init rfl (anStudy_reliable _)
    Viewer.gaussianChart).1 (-1) (by unfold Position; decide)).1

/-- candles in a scenario that is not there -/
example : Viewer.candles anAnalyzer "elec" "b" "cell" 7 = .error .keyError :=
  C137_candles_partial anStudy_built anResult_mirrors anAnalyzer_init (anStudy_reliable _)
    (.inr (by unfold Position; decide +kernel))

/-! ### Totals -/

theorem getE_absent {α β : Type} [DecidableEq α] {d : Dict α β} {k : α} (h : k ∉ d.map Prod.fst) :
    Dict.getE d k = .error .keyError := by
  unfold Dict.getE
  rw [(Dict.get?_eq_none_iff d k).mpr h]

/-- C137 (partial, totals): counts and costs of a node or of a network that the study does not have raise, and so do the
names of the nodes of such a network. Missing: balances and margins (`C137_balance_refuted`, `C137_rac_refuted`). -/
theorem C137_totals_partial (hb : Built s) (ha : Analyzer.init junk s r = .ok a) :
    (∀ g d, (∀ n, ¬ HasNode s g d n) → a.elementsInside (some d) (some g) = .error .keyError ∧
      a.getCost (some d) (some g) = .error .keyError) ∧
    (∀ d, (∀ n, ¬ HasNode s "default" d n) → a.elementsInside (some d) none = .error .keyError ∧
      a.getCost (some d) none = .error .keyError) ∧
    (∀ g, g ∉ s.networks.map Prod.fst → a.elementsInside none (some g) = .error .keyError ∧
      a.getCost none (some g) = .error .keyError) := by
  have hs := (init_ok ha).1
  have hnode : ∀ g d, (∀ n, ¬ HasNode s g d n) → a.nodeElements g d = .error .keyError := by
    intro g d h
    unfold Analyzer.nodeElements
    rw [hs]
    by_cases hg : g ∈ s.networks.map Prod.fst
    · obtain ⟨⟨g', net⟩, hm, rfl⟩ := List.mem_map.mp hg
      rw [Dict.getE_of_get? ((Built.inv hb).get?_network hm)]
      simp only [bind, Except.bind]
      rw [getE_absent]
      intro hd
      obtain ⟨⟨d', n⟩, hn, rfl⟩ := List.mem_map.mp hd
      exact h n ⟨net, hm, hn⟩
    · rw [getE_absent hg]; rfl
  refine ⟨?_, ?_, ?_⟩
  · intro g d h
    have : a.elementsInside (some d) (some g) = .error .keyError := hnode g d h
    refine ⟨this, ?_⟩
    unfold Analyzer.getCost
    rw [this]; rfl
  · intro d h
    have : a.elementsInside (some d) none = .error .keyError := by
      show (if d = "" then _ else _) = _
      split_ifs
      · rfl
      · exact hnode _ d h
    refine ⟨this, ?_⟩
    unfold Analyzer.getCost
    rw [this]; rfl
  · intro g h
    have : a.elementsInside none (some g) = .error .keyError := by
      show a.networkElements g = _
      unfold Analyzer.networkElements
      rw [hs, getE_absent h]
      split_ifs <;> rfl
    refine ⟨this, ?_⟩
    unfold Analyzer.getCost
    rw [this]; rfl

/-- C137 is false of balances: that of a node that the study does not have is zero everywhere. -/
theorem C137_balance_refuted (hb : Built s) (hm : Mirrors s r) (ha : Analyzer.init junk s r = .ok a) {g d : String}
    (h : ∀ n, ¬ HasNode s g d n) : ∃ b, a.getBalance d g = .ok b ∧ Holds s b fun _ _ => 0 := by
  have hi := Built.inv hb
  have hs := (init_ok ha).1
  unfold Analyzer.getBalance
  obtain ⟨b1, e1, h1⟩ := balancePart_ok hs (op := (· - ·)) (select_link hb hm ha "dest" g d
    (fun e => decide (e.2.2.2.dest = d) && decide (e.1 = g)) (by simp) (by
      intro e k t; simp [Row.at, linkRow, Dict.get?])) (fun x => sub_zero x) (ArrIs.zeros _ _)
  obtain ⟨b2, e2, h2⟩ := balancePart_ok hs (op := (· + ·)) (select_link hb hm ha "node" g d
    (fun e => decide (e.2.1 = d) && decide (e.1 = g)) (by simp) (by
      intro e k t; simp [Row.at, linkRow, Dict.get?])) (fun x => add_zero x) h1
  simp only [hs, e1, bind, Except.bind]
  refine ⟨b2, e2, (h2.congr ?_).holds⟩
  intro k _ t _
  rw [List.filter_eq_nil_iff.mpr, List.filter_eq_nil_iff.mpr]
  · simp [sumL]
  · rintro ⟨g', d', i, c⟩ he
    simp only [Bool.and_eq_true, decide_eq_true_eq]
    rintro ⟨rfl, rfl⟩
    obtain ⟨n, hn, _⟩ := of_mem_elements he
    exact h n hn
  · rintro ⟨g', d', i, c⟩ he
    simp only [Bool.and_eq_true, decide_eq_true_eq]
    rintro ⟨rfl, rfl⟩
    obtain ⟨n, ⟨net, hg, hd⟩, hc⟩ := of_mem_elements he
    obtain ⟨p, hp, hpe⟩ := List.mem_map.mp (hi.links g' net hg d' n hd c (List.mem_of_getElem? hc))
    exact h p.2 ⟨net, hg, by rw [← hpe]; exact hp⟩

/-- the margins of a network that is not there are zero -/
theorem rac_absent (hb : Built s) (hm : Mirrors s r) (ha : Analyzer.init junk s r = .ok a) {g : String}
    (h : g ∉ s.networks.map Prod.fst) : ∃ c, a.getRac g = .ok c ∧ ArrIs s.nbScn s.horizon c fun _ _ => 0 := by
  have hs := (init_ok ha).1
  obtain ⟨c1, e1, h1⟩ := racPart_ok hs (select_production hb hm ha "used" g
    (fun e k t => cellAt (outNode r e.1 e.2.1).productions e.2.2.1 (·.quantity) k t) (by decide)
    fun _ _ _ => rfl)
  obtain ⟨c2, e2, h2⟩ := racPart_ok hs (select_production hb hm ha "avail" g
    (fun e k t => val e.2.2.2.quantity k t) (by decide) fun _ _ _ => rfl)
  obtain ⟨c3, e3, h3⟩ := racPart_ok hs (select_consumption hb hm ha "asked" g
    (fun e k t => val e.2.2.2.quantity k t) (by decide) fun _ _ _ => rfl)
  obtain ⟨c4, e4, h4⟩ := racPart_ok hs (select_consumption hb hm ha "given" g
    (fun e k t => cellAt (outNode r e.1 e.2.1).consumptions e.2.2.1 (·.quantity) k t) (by decide)
    fun _ _ _ => rfl)
  obtain ⟨x, ex, hx⟩ := h2.zip h1 (· - ·)
  obtain ⟨y, ey, hy⟩ := h3.zip h4 (· - ·)
  obtain ⟨z, ez, hz⟩ := hx.zip hy (· - ·)
  unfold Analyzer.getRac
  simp only [e1, e2, e3, e4, ex, ey, ez, bind, Except.bind]
  refine ⟨z, rfl, hz.congr ?_⟩
  intro k _ t _
  have hnil : ∀ {α : Type} (sel : InputNode → List α), ((elements s sel).filter fun e => decide (e.1 = g)) = [] := by
    intro α sel
    refine List.filter_eq_nil_iff.mpr ?_
    rintro ⟨g', d', i, c⟩ he
    simp only [decide_eq_true_eq]
    rintro rfl
    obtain ⟨n, ⟨net, hg, _⟩, _⟩ := of_mem_elements he
    exact h (List.mem_map.mpr ⟨_, hg, rfl⟩)
  rw [hnil, hnil]
  simp [sumL]

/-- C137 is false of margins: those of a network that the study does not have are zero everywhere. -/
theorem C137_rac_refuted (hb : Built s) (hm : Mirrors s r) (ha : Analyzer.init junk s r = .ok a) {g : String}
    (h : g ∉ s.networks.map Prod.fst) : ∃ c, a.getRac g = .ok c ∧ Holds s c fun _ _ => 0 := by
  obtain ⟨c, h1, h2⟩ := rac_absent hb hm ha h
  exact ⟨c, h1, h2.holds⟩

/-! ### Matrices, maps and stacks -/

/-- C137 (partial, matrices): the matrix of a network that the study does not have raises -/
theorem C137_matrix_partial (hb : Built s) (hm : Mirrors s r) (ha : Analyzer.init junk s r = .ok a) {g : String}
    (h : g ∉ s.networks.map Prod.fst) : Viewer.racMatrix a g = .error .valueError := by
  obtain ⟨c, h1, h2⟩ := rac_absent hb hm ha h
  unfold Viewer.racMatrix
  rw [h1]
  simp only [bind, Except.bind]
  split_ifs
  · rfl
  · unfold Viewer.matrixChart
    rw [sdt_refused (.inl fun q hq => ?_)]
    · rfl
    · rw [h2.data] at hq
      obtain ⟨_, _, rfl⟩ := List.mem_map.mp hq
      exact le_refl _

/-- no such position, even counted from the end -/
theorem axisIndex_out {m : ℕ} {i : ℤ} (h : i < -(m : ℤ) ∨ (m : ℤ) ≤ i) :
    NdArray.axisIndex m i = .error .indexError := by
  unfold NdArray.axisIndex
  split_ifs <;> first | rfl | omega

/-- C137 (partial, maps): the map of a network that the study does not have raises; the map at a time or in a scenario beyond
those of the study raises. Missing: negative positions (`C137_map_refuted`). -/
theorem C137_map_partial (hb : Built s) (hm : Mirrors s r) (ha : Analyzer.init junk s r = .ok a)
    (coord : Option (Dict String (ℚ × ℚ))) (limit : Option ℚ) :
    (∀ g t k, g ∉ s.networks.map Prod.fst → Viewer.map a coord g t k limit = .error .keyError) ∧
    (∀ g net t k, (g, net) ∈ s.networks → net.nodes ≠ [] → t < -(s.horizon : ℤ) ∨ (s.horizon : ℤ) ≤ t ∨
      k < -(s.nbScn : ℤ) ∨ (s.nbScn : ℤ) ≤ k → Viewer.map a coord g t k limit = .error .indexError) := by
  constructor
  · intro g t k h
    have : a.nodes g = .error .keyError := by
      unfold Analyzer.nodes
      rw [(init_ok ha).2.1, getE_absent]
      · rfl
      · have := hm.networks
        have hk : r.networks.map Prod.fst = s.networks.map Prod.fst := by
          generalize s.networks = l at this
          generalize r.networks = m at this
          clear h
          induction this with
          | nil => rfl
          | cons h _ ih => rw [List.map_cons, List.map_cons, ih, h.1]
        rw [hk]; exact h
    unfold Viewer.map Viewer.mapWith
    rw [this]; rfl
  · intro g net t k hg h0 hpos
    obtain ⟨p, ps, hps⟩ : ∃ p ps, net.nodes = p :: ps := by
      cases h : net.nodes with
      | nil => exact absurd h h0
      | cons p ps => exact ⟨p, ps, rfl⟩
    have hn : HasNode s g p.1 p.2 := ⟨net, hg, by rw [hps]; simp⟩
    obtain ⟨b, e1, e2⟩ := C44 hb hm ha hn
    have e3 : b.get2 k t = .error .indexError := by
      unfold NdArray.get2
      rw [e2.1.1]
      simp only
      by_cases hk : k < -(s.nbScn : ℤ) ∨ (s.nbScn : ℤ) ≤ k
      · rw [axisIndex_out hk]; rfl
      · have ht : t < -(s.horizon : ℤ) ∨ (s.horizon : ℤ) ≤ t := by tauto
        rw [axisIndex_out ht]
        unfold NdArray.axisIndex
        split_ifs <;> rfl
    unfold Viewer.map Viewer.mapWith
    rw [nodes_ok hb hm ha hg, hps]
    simp only [bind, Except.bind, List.map_cons, List.mapM_cons, e1, e3]

/-- C137 is false of maps: a time counted from the end is taken by the nodes and not by the links, so that the map shows the
balances of that time and no exchange. -/
theorem C137_map_refuted (hb : Built s) (hm : Mirrors s r) (ha : Analyzer.init junk s r = .ok a) {g : String}
    {net : InputNetwork} (hg : (g, net) ∈ s.networks) (h0 : net.nodes ≠ []) {coord : Dict String (ℚ × ℚ)}
    (hco : ∀ p ∈ net.nodes, ∃ q, Dict.get? coord p.1 = some q) {k t : ℕ} (hk : k < s.nbScn) (ht : t < s.horizon)
    (limit : ℚ) :
    Viewer.map a (some coord) g ((t : ℤ) - s.horizon) (k : ℤ) (some limit) =
      .ok ⟨net.nodes.map (fun p => (p.1, balanceOf s r g p.1 p.2 k t)), [], limit⟩ := by
  have hn : ∀ p ∈ net.nodes, HasNode s g p.1 p.2 := fun p hp => ⟨net, hg, hp⟩
  have hbal : (net.nodes.map Prod.fst).mapM (fun d => do
      let b ← a.getBalance d g
      let q ← b.get2 (k : ℤ) ((t : ℤ) - s.horizon)
      pure (d, q)) = Except.ok (ε := PyErr) (net.nodes.map fun p => (p.1, balanceOf s r g p.1 p.2 k t)) := by
    rw [List.mapM_map]
    refine mapM_ok ?_
    intro p hp
    obtain ⟨b, e1, e2⟩ := C44 hb hm ha (hn p hp)
    have e3 : b.get2 (k : ℤ) ((t : ℤ) - s.horizon) = .ok (balanceOf s r g p.1 p.2 k t) := by
      unfold NdArray.get2
      rw [e2.1.1]
      simp only [NdArray.axisIndex_nat, NdArray.axisIndex_neg ht, if_pos hk, bind, Except.bind]
      rw [cell_full e2.1 hk ht, e2.2 k hk t ht]
      rfl
    simp only [Function.comp_apply, e1, e3, bind, Except.bind, pure, Except.pure]
  have hq := query_missing hb hm ha (kind := .link) rfl (g := g) (calls :=
    [(.scn, .one (.num ((k : ℤ) : ℚ))), (.time, .one (.num (((t : ℤ) - s.horizon : ℤ) : ℚ))), (.node, .none), (.link, .none)])
    (by simp only [List.map_cons, List.map_nil]; decide) (by simp) (by simp) ⟨by simp, by simp⟩ (by
      intro row hrow hmatch
      obtain ⟨g', d, y, k', t', _, _, ht', _, _, _, _, e5⟩ := row_inStudy hb hrow
      have m := hmatch (.time, .one (.num (((t : ℤ) - s.horizon : ℤ) : ℚ))) (by simp)
      simp only [Selects, column_time, e5, Cell.num.injEq] at m
      have : (t' : ℤ) = (t : ℤ) - s.horizon := by exact_mod_cast m
      omega)
  have hknown : ∀ p ∈ net.nodes, Dict.contains coord p.1 = true := by
    intro p hp
    obtain ⟨q, hq⟩ := hco p hp
    simp [Dict.contains, hq]
  have hmap : Viewer.mapChart (some coord) (net.nodes.map fun p => (p.1, balanceOf s r g p.1 p.2 k t))
      [] limit = .ok ⟨net.nodes.map (fun p => (p.1, balanceOf s r g p.1 p.2 k t)), [], limit⟩ := by
    unfold Viewer.mapChart
    simp only
    rw [if_pos, if_pos (by rfl), if_neg (by simpa using h0)]
    rw [List.all_eq_true]
    intro p hpm
    obtain ⟨q, hq, rfl⟩ := List.mem_map.mp hpm
    exact hknown q hq
  obtain ⟨pt, q1, q2, q3⟩ : ∃ pt, Viewer.query a g [(.scn, .one (.num ((k : ℤ) : ℚ))),
      (.time, .one (.num (((t : ℤ) - s.horizon : ℤ) : ℚ))), (.node, .none), (.link, .none)] = .ok pt ∧ pt.lines = [] ∧
      "node" ∈ pt.levels := by
    rcases hq with h | ⟨pt, q1, q2, q3⟩
    · obtain ⟨pt, h1, _⟩ := viewer_query hb hm ha (kind := .link) rfl (g := g) (calls :=
        [(.scn, .one (.num ((k : ℤ) : ℚ))), (.time, .one (.num (((t : ℤ) - s.horizon : ℤ) : ℚ))), (.node, .none),
          (.link, .none)]) (by simp only [List.map_cons, List.map_nil]; decide) (by simp) (by simp) ⟨by simp, by simp⟩
        (by simp)
      rw [h1] at h
      cases h
    · exact ⟨pt, q1, q2, q3 (.node, .none) (by simp) rfl⟩
  have hlv : Viewer.levelValues pt "node" = .ok [] := by
    unfold Viewer.levelValues Analyzer.level
    rw [if_pos q3, q2]
    rfl
  unfold Viewer.map Viewer.mapWith
  rw [nodes_ok hb hm ha hg]
  simp only [bind, Except.bind, pure, Except.pure] at hbal ⊢
  rw [hbal]
  simp only [q1, hlv]
  exact hmap

/-- the part of a stack for a scenario that is not there -/
theorem part_missing (hb : Built s) (hm : Mirrors s r) (ha : Analyzer.init junk s r = .ok a) {kind : IndexKind}
    (hk : kind = .cons ∨ kind = .prod ∨ kind = .stor) (hr : Reliable s kind) (srt : Viewer.SortValues) (g d : String) {k : ℤ}
    (hpos : ¬ Position s.nbScn k) {n : ℕ} (hn : 0 < n) (v : String) :
    Viewer.part a srt g d k n kind v (some "cost") = .error .keyError := by
  have := query_missing hb hm ha (kind := kind) (by rcases hk with rfl | rfl | rfl <;> rfl) (g := g) (calls :=
    [(.scn, .one (.num k)), (.node, .one (.str d)), (kind, .none), (.time, .none)])
    (by simp only [List.map_cons, List.map_nil]; rcases hk with rfl | rfl | rfl <;> decide) (by simp) (by simp) hr (by
      intro row hrow hmatch
      obtain ⟨g', d, y, k', t', _, hk', _, _, _, _, e4, _⟩ := row_inStudy hb hrow
      have m := hmatch (.scn, .one (.num k)) (by simp)
      simp only [Selects, column_scn, e4, Cell.num.injEq] at m
      have : (k' : ℤ) = k := by exact_mod_cast m
      exact hpos ⟨by omega, by omega⟩)
  unfold Viewer.part
  rw [if_pos hn]
  rcases this with h | ⟨pt, h1, h2, _⟩
  · rw [h]; rfl
  · rw [h1]
    show Viewer.extract srt pt v (some "cost") = _
    unfold Viewer.extract
    rw [h2]
    rfl

/-- C137 (partial, stacks): the stack of a node that the study does not have raises; the stack in a scenario beyond those of the
study raises, and so does a negative one if the node has a consumption, a production or a storage. Missing: negative scenarios
elsewhere (`C137_stack_refuted`). -/
theorem C137_stack_partial (hb : Built s) (hm : Mirrors s r) (ha : Analyzer.init junk s r = .ok a) (srt : Viewer.SortValues)
    (g d : String) (k : ℤ) (pk ck : String) :
    ((∀ n, ¬ HasNode s g d n) → Viewer.stack a srt g d k pk ck = .error .keyError) ∧
    (∀ n, HasNode s g d n → k < -(s.nbScn : ℤ) ∨ (s.nbScn : ℤ) ≤ k → ∃ e, Viewer.stack a srt g d k pk ck = .error e) ∧
    (∀ n, HasNode s g d n → ¬ Position s.nbScn k → n.consumptions ≠ [] ∨ n.productions ≠ [] ∨ n.storages ≠ [] ∧
      Reliable s .stor → ∃ e, Viewer.stack a srt g d k pk ck = .error e) := by
  refine ⟨?_, ?_, ?_⟩
  · intro h
    unfold Viewer.stack
    rw [((C137_totals_partial hb ha).1 g d h).1]; rfl
  · intro n hn hk
    obtain ⟨b, e1, e2⟩ := C44 hb hm ha hn
    have hrow : Viewer.rowAt b k = .error .indexError := by
      unfold Viewer.rowAt
      rw [e2.1.1]
      simp only
      rw [axisIndex_out hk]; rfl
    unfold Viewer.stack
    rw [C46_node hb ha hn]
    simp only [bind, Except.bind, e1, hrow]
    repeat' split
    all_goals first | exact ⟨_, rfl⟩ | (rename_i h; cases h)
  · intro n hn hk hel
    unfold Viewer.stack
    rw [C46_node hb ha hn]
    simp only [counts, bind, Except.bind, List.getD_cons_zero, List.getD_cons_succ]
    rcases hel with h | h | ⟨h, hst⟩
    · rw [part_missing hb hm ha (.inl rfl) ⟨by simp, by simp⟩ srt g d hk (List.length_pos_of_ne_nil h)]
      dsimp only
      repeat' split
      all_goals first | exact ⟨_, rfl⟩ | (rename_i h; cases h)
    · rw [part_missing hb hm ha (.inr (.inl rfl)) ⟨by simp, by simp⟩ srt g d hk (List.length_pos_of_ne_nil h)]
      exact ⟨_, rfl⟩
    · rw [part_missing hb hm ha (.inr (.inr rfl)) hst srt g d hk (List.length_pos_of_ne_nil h)]
      dsimp only
      repeat' split
      all_goals first | exact ⟨_, rfl⟩ | (rename_i h; cases h)

/-- C137 is false of stacks: at a node with links only, a scenario counted from the end is drawn. -/
theorem C137_stack_refuted (hb : Built s) (hm : Mirrors s r) (ha : Analyzer.init junk s r = .ok a) {srt : Viewer.SortValues}
    (hsrt : Descending srt) {g d : String} {n : InputNode} (hn : HasNode s g d n) (hc : n.consumptions = [])
    (hp : n.productions = []) (hst : n.storages = []) (hcv : s.converters = []) {k : ℕ} (hk : k < s.nbScn)
    (hh : 0 < s.horizon) :
    ∃ chart, Viewer.stack a srt g d ((k : ℤ) - s.nbScn) "used" "asked" = .ok chart ∧
      Viewer.stack a srt g d (k : ℤ) "used" "asked" = .ok chart := by
  obtain ⟨chart, _, _, _, _, _, _, _, _, h, _⟩ := C60_bands_partial hb hm ha hn (fun h => absurd hst h)
    (by rintro ⟨p, hp, _⟩; rw [hcv] at hp; cases hp) hk hh hsrt (.inl rfl) (.inr rfl)
  refine ⟨chart, ?_, h⟩
  rw [← h]
  obtain ⟨b, e1, e2⟩ := C44 hb hm ha hn
  have hrow : Viewer.rowAt b ((k : ℤ) - s.nbScn) = Viewer.rowAt b k := by
    unfold Viewer.rowAt
    rw [e2.1.1]
    simp only [NdArray.axisIndex_nat, NdArray.axisIndex_neg hk, if_pos hk]
  unfold Viewer.stack
  rw [C46_node hb ha hn]
  simp only [counts, hc, hp, hst, hcv, List.length_nil, List.countP_nil, List.getD_cons_zero, List.getD_cons_succ,
    Viewer.part, lt_irrefl, if_false, e1, bind, Except.bind, pure, Except.pure, hrow]

theorem ghost_node : ∀ n, ¬ HasNode anStudy "elec" "ghost" n := by
  rintro n ⟨net, h1, h2⟩
  have : ∀ p ∈ anStudy.networks, ∀ q ∈ p.2.nodes, q.1 ≠ "ghost" := by decide +kernel
  exact this _ h1 _ h2 rfl

/-- the cost of a node that is not there raises, its balance is zero -/
example : anAnalyzer.getCost (some "ghost") (some "elec") = .error .keyError ∧
    ∃ b, anAnalyzer.getBalance "ghost" "elec" = .ok b ∧ Holds anStudy b fun _ _ => 0 :=
  ⟨((C137_totals_partial anStudy_built anAnalyzer_init).1 _ _ ghost_node).2,
    C137_balance_refuted anStudy_built anResult_mirrors anAnalyzer_init ghost_node⟩

/-- the matrix of a network that is not there raises, its margins are zero -/
example : Viewer.racMatrix anAnalyzer "ghost" = .error .valueError ∧
    ∃ c, anAnalyzer.getRac "ghost" = .ok c ∧ Holds anStudy c fun _ _ => 0 :=
  ⟨C137_matrix_partial anStudy_built anResult_mirrors anAnalyzer_init (by decide +kernel),
    C137_rac_refuted anStudy_built anResult_mirrors anAnalyzer_init (by decide +kernel)⟩

example : Viewer.map anAnalyzer none "ghost" 0 0 none = .error .keyError :=
  (C137_map_partial anStudy_built anResult_mirrors anAnalyzer_init none none).1 _ _ _ (by decide +kernel)

/-- at time 9, which is beyond the horizon -/
example : Viewer.map anAnalyzer none "elec" 9 0 none = .error .indexError :=
  (C137_map_partial anStudy_built anResult_mirrors anAnalyzer_init none none).2 _ _ _ _
    (anNet_mem "elec" (by decide +kernel)) (by decide +kernel) (.inr (.inl (by decide +kernel)))

/-- at the last time, counted from the end: the exchange from `a` to `b` is not drawn (see the example of `C61`) -/
example : ∃ chart, Viewer.map anAnalyzer (some [("a", (0, 0)), ("b", (1, 1))]) "elec" ((1 : ℕ) - anStudy.horizon) (1 : ℕ)
    (some 3) = .ok chart ∧ chart.nodes = [("a", 3), ("b", -3)] ∧ chart.arrows = [] := by
  have hnet : (anNet "elec").nodes.map Prod.fst = ["a", "b"] := by decide +kernel
  have h := C137_map_refuted anStudy_built anResult_mirrors anAnalyzer_init
    (anNet_mem "elec" (by decide +kernel)) (by decide +kernel) (coord := [("a", (0, 0)), ("b", (1, 1))]) (by
      intro p hp
      have : p.1 ∈ ["a", "b"] := hnet ▸ List.mem_map_of_mem hp
      simp only [List.mem_cons, List.not_mem_nil, or_false] at this
      rcases this with h | h <;> rw [h] <;> exact ⟨_, rfl⟩) (k := 1) (t := 1) (by decide +kernel)
    (by decide +kernel) 3
  have hbal : (anNet "elec").nodes.map (fun p => (p.1, balanceOf anStudy anResult "elec" p.1 p.2 1 1)) =
      [("a", 3), ("b", -3)] := by decide +kernel
  exact ⟨_, h, hbal, rfl⟩

example (srt : Viewer.SortValues) : Viewer.stack anAnalyzer srt "elec" "ghost" 0 "used" "asked" = .error .keyError :=
  (C137_stack_partial anStudy_built anResult_mirrors anAnalyzer_init srt _ _ _ _ _).1 ghost_node

/-- node `a` has a production -/
example (srt : Viewer.SortValues) : ∃ e, Viewer.stack anAnalyzer srt "elec" "a" (-1) "used" "asked" = .error e :=
  (C137_stack_partial anStudy_built anResult_mirrors anAnalyzer_init srt _ _ _ _ _).2.2 _
    (hasNode_inNode (by decide +kernel)) (by unfold Position; decide) (.inr (.inl (by decide +kernel)))

/-- two nodes with a link and nothing else -/
def hubCalls : List Call := [.studyNetwork "n", .netNode 0 "a", .netNode 0 "b",
  .netLink 0 "a" "b" (.num 2) (.num 10)]

def hub : Study := ((World.start 2 2).run hubCalls).study

theorem hub_built : Built hub := ⟨2, 2, hubCalls, rawCalls_of (by decide +kernel), rfl⟩

/-- the last scenario, counted from the end -/
example : ∃ r a chart, Analyzer.init (fun _ _ _ => .nan) hub r = .ok a ∧
    Viewer.stack a highestFirst "n" "a" ((1 : ℕ) - hub.nbScn) "used" "asked" = .ok chart := by
  have hm := mirrors_result (Built.inv hub_built) (fun _ _ => 3) ⟨[], [], 0, 0⟩
  obtain ⟨a, ha⟩ := init_total hub_built hm (fun _ _ _ => .nan) (by unfold CompleteConverters; decide +kernel)
    (by decide +kernel) (by decide +kernel)
  obtain ⟨chart, h, _⟩ := C137_stack_refuted hub_built hm ha highestFirst_descending (g := "n") (d := "a")
    (hasNode_inNode (by decide +kernel)) (by decide +kernel) (by decide +kernel) (by decide +kernel) (by decide +kernel)
    (k := 1) (by decide +kernel) (by decide +kernel)
  exact ⟨_, a, chart, ha, h⟩

end Hadar.Props
