import Verif.Proofs.ViewerStack
import Verif.Props.Viewer

/-! # C60, C69: stack charts -/

namespace Hadar.Props

open Hadar Hadar.Spec

variable {junk : Junk} {s : Study} {r : Result} {a : Analyzer}

/-- C60, C69 (partial): what the stack chart of a node shows. From bottom to top, the areas are productions and
storages, each from the highest peak of cost to the lowest, then converters, then net imports if any. The lines are
consumptions and storages, then converters, then net exports if any. Missing: a node with storages when the study
has several, a node that converters draw from when some converter has several sources (`C34_refuted`,
`C36_refuted`). -/
theorem C60_bands_partial (hb : Built s) (hm : Mirrors s r) (ha : Analyzer.init junk s r = .ok a) {g d : String}
    {n : InputNode} (hn : HasNode s g d n) (h1s : n.storages ≠ [] → storageCount s ≤ 1)
    (hsrc : (∃ p ∈ s.converters, [g, d] ∈ p.2.srcRatios.map Prod.fst) →
      RatiosUsable s ∧ ∀ p ∈ s.converters, p.2.srcRatios.length = 1)
    {k : ℕ} (hk : k < s.nbScn) (hh : 0 < s.horizon) {srt : Viewer.SortValues} (hs : Descending srt)
    {pk ck : String} (hpk : pk = "used" ∨ pk = "avail") (hck : ck = "given" ∨ ck = "asked") :
    ∃ chart P O A I C S D X, Viewer.stack a srt g d (k : ℤ) pk ck = .ok chart ∧
      Piled s.horizon (P ++ O ++ A ++ I) chart.areas ∧
      RankedOf s (productionBands s r g d n pk k) P ∧ RankedOf s (outflowBands s r g d n k) O ∧
      BandsOf s (arrivalBands s r g d k) A ∧
      ExchangeOf s "import" (fun t => max 0 (-balanceOf s r g d n k t)) I ∧
      Piled s.horizon (C ++ S ++ D ++ X) chart.lines.reverse ∧
      RankedOf s (consumptionBands s r g d n ck k) C ∧ RankedOf s (inflowBands s r g d n k) S ∧
      BandsOf s (departureBands s r g d k) D ∧
      ExchangeOf s "export" (fun t => max 0 (balanceOf s r g d n k t)) X := by
  have hi := Built.inv hb
  have hst : a.study = s := (init_ok ha).1
  have hin : inNode s g d = n := inNode_eq hi hn
  obtain ⟨P, eP, hP⟩ := part_ranked hb hm ha (production_listed hb r) rfl rfl (by simp) hk hh
    (node_elements hi (·.productions) hn) (fun _ => ⟨⟨by simp, by simp⟩, by simp⟩) (n := n.productions.length) (by simp)
    (V := fun e t => if pk = "avail" then val e.2.2.2.quantity k t else (dispatchOf s r k).prod e.1 e.2.1 e.2.2.1 t)
    (C := fun e => val e.2.2.2.cost k) (col := pk)
    (by rcases hpk with rfl | rfl <;> simp [keyColumns, IndexKind.column])
    (by rcases hpk with rfl | rfl <;> intro e t <;> rfl) (by simp [keyColumns, IndexKind.column])
    (fun _ _ => rfl) hs (l := productionBands s r g d n pk k) (by
      rw [List.map_map]; rfl)
  obtain ⟨O, eO, hO⟩ := part_ranked hb hm ha (storage_listed hb r) rfl rfl (by simp) hk hh
    (node_elements hi (·.storages) hn) (fun h => ⟨⟨fun _ => h1s (by
      intro h0; apply h; rw [h0]; rfl), by simp⟩, by simp⟩) (n := n.storages.length) (by simp)
    (V := fun e t => (dispatchOf s r k).fout e.1 e.2.1 e.2.2.1 t)
    (C := fun e => val e.2.2.2.cost k) (col := "flow_out") (by simp [keyColumns, IndexKind.column])
    (fun _ _ => rfl) (by simp [keyColumns, IndexKind.column])
    (fun _ _ => rfl) hs (l := outflowBands s r g d n k) (by rw [List.map_map]; rfl)
  obtain ⟨S, eS, hS⟩ := part_ranked hb hm ha (storage_listed hb r) rfl rfl (by simp) hk hh
    (node_elements hi (·.storages) hn) (fun h => ⟨⟨fun _ => h1s (by
      intro h0; apply h; rw [h0]; rfl), by simp⟩, by simp⟩) (n := n.storages.length) (by simp)
    (V := fun e t => (dispatchOf s r k).fin e.1 e.2.1 e.2.2.1 t)
    (C := fun e => val e.2.2.2.cost k) (col := "flow_in") (by simp [keyColumns, IndexKind.column])
    (fun _ _ => rfl) (by simp [keyColumns, IndexKind.column])
    (fun _ _ => rfl) hs (l := inflowBands s r g d n k) (by rw [List.map_map]; rfl)
  obtain ⟨C, eC, hC⟩ := part_ranked hb hm ha (consumption_listed hb r) rfl rfl (by simp) hk hh
    (node_elements hi (·.consumptions) hn) (fun _ => ⟨⟨by simp, by simp⟩, by simp⟩) (n := n.consumptions.length) (by simp)
    (V := fun e t => if ck = "asked" then val e.2.2.2.quantity k t
      else cellAt (outNode r e.1 e.2.1).consumptions e.2.2.1 (·.quantity) k t)
    (C := fun e => val e.2.2.2.cost k) (col := ck)
    (by rcases hck with rfl | rfl <;> simp [keyColumns, IndexKind.column])
    (by rcases hck with rfl | rfl <;> intro e t <;> rfl) (by simp [keyColumns, IndexKind.column])
    (fun _ _ => rfl) hs (l := consumptionBands s r g d n ck k) (by
      rw [List.map_map]
      unfold consumptionBands
      refine List.map_congr_left ?_
      rintro ⟨c, i⟩ hc
      rw [List.mem_zipIdx_iff_getElem?] at hc
      simp only [Function.comp_apply, Prod.mk.injEq, true_and]
      funext t
      have : (dispatchOf s r k).lol g d i t = val c.quantity k t -
          cellAt (outNode r g d).consumptions i (·.quantity) k t := by
        simp only [dispatchOf, hin]
        simp only at hc
        rw [hc]
      rw [this, sub_sub_cancel])
  obtain ⟨A, eA, hA⟩ := part_plain hb hm ha (dest_listed hb r) rfl rfl (fun h => h) hk hh
    (g := g) (d := d) (F := s.converters.filter fun p => decide (p.2.destNetwork = g ∧ p.2.destNode = d)) (by
      refine List.filter_congr ?_
      intro p _
      simp only [scope, Option.isNone_some, Bool.false_or, Option.some.injEq]
      rw [Bool.eq_iff_iff]
      simp only [Bool.and_eq_true, decide_eq_true_eq]
      exact ⟨fun h => ⟨h.1.symm, h.2.symm⟩, fun h => ⟨h.1.symm, h.2.symm⟩⟩) (fun _ => ⟨⟨by simp, by simp⟩, by simp⟩)
    (n := s.converters.countP fun p => decide ((p.2.destNetwork, p.2.destNode) = (g, d))) (by
      rw [List.countP_eq_length_filter]
      simp only [Prod.mk.injEq])
    (V := fun p => (dispatchOf s r k).convDest p.1) (col := "flow") (by simp [keyColumns, IndexKind.column])
    (fun _ _ _ => rfl) srt (l := arrivalBands s r g d k) rfl
  have hlen : ((sources s).filter fun e => scope (some d) (some g) (e.2.2.1, e.2.2.2.1)).length =
      s.converters.countP fun p => decide ([g, d] ∈ p.2.srcRatios.map Prod.fst) := by
    have := congrArg List.length (node_sources hi r g d k)
    rw [List.length_map] at this
    rw [this, departureBands, List.length_map, List.countP_eq_length_filter]
  have hDD := part_plain hb hm ha (source_listed hb r) rfl rfl (by
      intro h h0; apply h; unfold sources; rw [h0]; rfl) hk hh (g := g) (d := d) rfl (by
      intro h
      refine (fun hs => ⟨⟨by simp, fun _ => (hsrc hs).2⟩, fun _ => (hsrc hs).1.drawn⟩) ?_
      have h0 : 0 < s.converters.countP fun p => decide ([g, d] ∈ p.2.srcRatios.map Prod.fst) := by
        rw [← hlen]; exact List.length_pos_iff.mpr h
      rw [List.countP_pos_iff] at h0
      obtain ⟨p, hp, h1⟩ := h0
      exact ⟨p, hp, by simpa using h1⟩)
    hlen.symm
    (V := fun e => (dispatchOf s r k).convSrc e.2.1 (g, d)) (col := "flow") (by simp [keyColumns, IndexKind.column])
    (by
      intro e he t
      have := (List.mem_filter.mp he).2
      simp only [scope, Option.isNone_some, Bool.false_or, Bool.and_eq_true, decide_eq_true_eq,
        Option.some.injEq] at this
      rw [this.1, this.2]
      rfl) srt (node_sources hi r g d k)
  obtain ⟨D, eD, hD⟩ := hDD
  obtain ⟨b, eb, hbal⟩ := C44 hb hm ha hn
  have hI := exchange_ok s "import" fun t => max 0 (-balanceOf s r g d n k t)
  have hX := exchange_ok s "export" fun t => max 0 (balanceOf s r g d n k t)
  have eI : ((List.range s.horizon).map fun t => balanceOf s r g d n k t).map (fun b => -(min b 0)) =
      (List.range s.horizon).map fun t => max 0 (-balanceOf s r g d n k t) := by
    rw [List.map_map]
    refine List.map_congr_left ?_
    intro t _
    simp only [Function.comp_apply]
    rcases le_total (balanceOf s r g d n k t) 0 with h | h
    · rw [min_eq_left h, max_eq_right (by linarith)]
    · rw [min_eq_right h, max_eq_left (by linarith), neg_zero]
  have eX : ((List.range s.horizon).map fun t => balanceOf s r g d n k t).map (fun b => max b 0) =
      (List.range s.horizon).map fun t => max 0 (balanceOf s r g d n k t) := by
    rw [List.map_map]
    refine List.map_congr_left ?_
    intro t _
    exact max_comm _ _
  obtain ⟨ar, e1, p1⟩ := stackUp_piled (h := s.horizon) (entries := P ++ O ++ A ++ Viewer.exchanged "import"
    ((List.range s.horizon).map fun t => max 0 (-balanceOf s r g d n k t))) (by
      intro p hp
      simp only [List.mem_append] at hp
      rcases hp with ((hp | hp) | hp) | hp
      · exact hP.lengths p hp
      · exact hO.lengths p hp
      · exact hA.lengths p hp
      · exact hI.lengths p hp)
  obtain ⟨li, e2, p2⟩ := stackUp_piled (h := s.horizon) (entries := C ++ S ++ D ++ Viewer.exchanged "export"
    ((List.range s.horizon).map fun t => max 0 (balanceOf s r g d n k t))) (by
      intro p hp
      simp only [List.mem_append] at hp
      rcases hp with ((hp | hp) | hp) | hp
      · exact hC.lengths p hp
      · exact hS.lengths p hp
      · exact hD.lengths p hp
      · exact hX.lengths p hp)
  refine ⟨⟨ar, li.reverse⟩, P, O, A, _, C, S, D, _, ?_, p1, hP, hO, hA, hI, by rwa [List.reverse_reverse],
    hC, hS, hD, hX⟩
  have hrow := rowAt_holds hbal hk
  unfold Viewer.stack Viewer.stackChart
  rw [C46_node hb ha hn]
  simp only [bind, Except.bind, counts, List.getD_cons_succ, List.getD_cons_zero]
  rw [eP]
  simp only [eO, eA, eb, hrow, eC, eS, eD, hst]
  have eI' := eI
  have eX' := eX
  unfold balanceOf at eI' eX'
  rw [eI', eX']
  have e1' := e1
  have e2' := e2
  unfold balanceOf at e1' e2'
  simp only [e1', e2']
  rfl

/-- sums of the entries of a stack -/
theorem stack_tops (hb : Built s) {g d : String} {n : InputNode} {k : ℕ} {pk ck : String} {chart : Viewer.StackChart}
    {P O A I C S D X : List (Cell × List ℚ)} (hA : Piled s.horizon (P ++ O ++ A ++ I) chart.areas)
    (hP : RankedOf s (productionBands s r g d n pk k) P) (hO : RankedOf s (outflowBands s r g d n k) O)
    (hAr : BandsOf s (arrivalBands s r g d k) A)
    (hI : ExchangeOf s "import" (fun t => max 0 (-balanceOf s r g d n k t)) I)
    (hL : Piled s.horizon (C ++ S ++ D ++ X) chart.lines.reverse)
    (hC : RankedOf s (consumptionBands s r g d n ck k) C) (hS : RankedOf s (inflowBands s r g d n k) S)
    (hD : BandsOf s (departureBands s r g d k) D)
    (hX : ExchangeOf s "export" (fun t => max 0 (balanceOf s r g d n k t)) X) {t : ℕ} (ht : t < s.horizon) :
    linesTop chart t - areasTop chart t = sumL (consumptionBands s r g d n ck k) (fun e => e.2.2 t) +
      sumI n.storages (fun _ i => (dispatchOf s r k).fin g d i t) + toConverters s (dispatchOf s r k) g d t +
      sumI n.links (fun _ i => (dispatchOf s r k).link g d i t) -
      (sumL (productionBands s r g d n pk k) (fun e => e.2.2 t) +
        sumI n.storages (fun _ i => (dispatchOf s r k).fout g d i t) +
        imports s (dispatchOf s r k) g d t + fromConverters s (dispatchOf s r k) g d t) := by
  have hi := Built.inv hb
  have h1 := piled_top hA ht
  have h2 := piled_top hL ht
  rw [List.getLast?_reverse] at h2
  have e1 : areasTop chart t = _ := h1
  have e2 : linesTop chart t = _ := h2
  rw [e1, e2]
  simp only [sumL_append, hP.sum ht, hO.sum ht, hAr.sum ht, hI.sum ht, hC.sum ht, hS.sum ht, hD.sum ht, hX.sum ht]
  have f1 : sumL (outflowBands s r g d n k) (fun e => e.2.2 t) =
      sumI n.storages fun _ i => (dispatchOf s r k).fout g d i t := by
    unfold outflowBands; rw [sumL_map]; rfl
  have f2 : sumL (inflowBands s r g d n k) (fun e => e.2.2 t) =
      sumI n.storages fun _ i => (dispatchOf s r k).fin g d i t := by
    unfold inflowBands; rw [sumL_map]; rfl
  have f3 : sumL (arrivalBands s r g d k) (fun e => e.2 t) = fromConverters s (dispatchOf s r k) g d t := by
    unfold arrivalBands fromConverters
    rw [sumL_map, sumL_filter]
    simp only [decide_eq_true_eq]
  have f4 : sumL (departureBands s r g d k) (fun e => e.2 t) = toConverters s (dispatchOf s r k) g d t := by
    unfold departureBands toConverters
    rw [sumL_map, sumL_filter]
    refine sumL_congr ?_
    intro p hp
    have hnd := hi.names.sources p hp
    simp only [decide_eq_true_eq]
    split_ifs with h
    · exact (sumL_pick (key := Prod.fst) hnd h ((dispatchOf s r k).convSrc p.1 (g, d) t)).symm.trans
        (sumL_congr fun q _ => by simp only [eq_comm])
    · refine (sumL_eq_zero fun q hq => ?_).symm
      rw [if_neg]
      intro h'
      exact h (h' ▸ List.mem_map_of_mem hq)
  have f5 : max 0 (balanceOf s r g d n k t) - max 0 (-balanceOf s r g d n k t) = balanceOf s r g d n k t := by
    rcases le_total (balanceOf s r g d n k t) 0 with h | h
    · rw [max_eq_left h, max_eq_right (by linarith)]; ring
    · rw [max_eq_right h, max_eq_left (by linarith)]; ring
  rw [f1, f2, f3, f4]
  have f6 : balanceOf s r g d n k t = sumI n.links (fun _ i => (dispatchOf s r k).link g d i t) -
    imports s (dispatchOf s r k) g d t := rfl
  linarith

/-- C60 (partial): after the LP optimizer, the stack of used productions is as high as the stack of consumptions
as given. Missing: links from a node to itself (`C19_refuted`), several storages (`C60_refuted`), nodes that
converters draw from when some converter has several sources (`C36_refuted`) or a ratio of zero. -/
theorem C60_partial (hr : Ready s) (hself : NoSelfLink s) {solver : Solver} {b : Benchmark}
    (hsol : solveLp solver b s = .ok r) (ha : Analyzer.init junk s r = .ok a) {g d : String}
    {n : InputNode} (hn : HasNode s g d n) (h1s : n.storages ≠ [] → storageCount s ≤ 1)
    (hsrc : (∃ p ∈ s.converters, [g, d] ∈ p.2.srcRatios.map Prod.fst) →
      RatiosUsable s ∧ ∀ p ∈ s.converters, p.2.srcRatios.length = 1)
    {k : ℕ} (hk : k < s.nbScn) (hf : Answers solver s k Cmd.Feasible) (hh : 0 < s.horizon)
    {srt : Viewer.SortValues} (hs : Descending srt) :
    ∃ chart, Viewer.stack a srt g d (k : ℤ) "used" "given" = .ok chart ∧
      ∀ t < s.horizon, areasTop chart t = linesTop chart t := by
  have hm : Mirrors s r := by
    obtain rfl := Ready.result hr hsol
    exact mirrors_result (Built.inv hr.built) _ _
  obtain ⟨chart, P, O, A, I, C, S, D, X, h0, h1, h2, h3, h4, h5, h6, h7, h8, h9, h10⟩ :=
    C60_bands_partial hr.built hm ha hn h1s hsrc hk hh hs (pk := "used") (.inl rfl)
      (ck := "given") (.inl rfl)
  refine ⟨chart, h0, fun t ht => ?_⟩
  have htop := stack_tops hr.built h1 h2 h3 h4 h5 h6 h7 h8 h9 h10 ht
  have hbal := C19_balance_partial hr hself hsol hk hf g d n hn t ht
  unfold incoming outgoing at hbal
  have e1 : sumL (productionBands s r g d n "used" k) (fun e => e.2.2 t) =
      sumI n.productions fun _ i => (dispatchOf s r k).prod g d i t := by
    unfold productionBands; rw [sumL_map]; rfl
  have e2 : sumL (consumptionBands s r g d n "given" k) (fun e => e.2.2 t) =
      sumI n.consumptions fun c i => val c.quantity k t - (dispatchOf s r k).lol g d i t := by
    unfold consumptionBands; rw [sumL_map]; rfl
  rw [e1, e2] at htop
  linarith

/-- C60 (partial): ... and the stack of consumptions as asked exceeds it by the consumption that is not served.
Missing: as above. -/
theorem C60_asked_partial (hr : Ready s) (hself : NoSelfLink s) {solver : Solver} {b : Benchmark}
    (hsol : solveLp solver b s = .ok r) (ha : Analyzer.init junk s r = .ok a) {g d : String}
    {n : InputNode} (hn : HasNode s g d n) (h1s : n.storages ≠ [] → storageCount s ≤ 1)
    (hsrc : (∃ p ∈ s.converters, [g, d] ∈ p.2.srcRatios.map Prod.fst) →
      RatiosUsable s ∧ ∀ p ∈ s.converters, p.2.srcRatios.length = 1)
    {k : ℕ} (hk : k < s.nbScn) (hf : Answers solver s k Cmd.Feasible) (hh : 0 < s.horizon)
    {srt : Viewer.SortValues} (hs : Descending srt) :
    ∃ chart, Viewer.stack a srt g d (k : ℤ) "used" "asked" = .ok chart ∧
      ∀ t < s.horizon, linesTop chart t = areasTop chart t +
        sumI n.consumptions fun _ i => (dispatchOf s r k).lol g d i t := by
  have hm : Mirrors s r := by
    obtain rfl := Ready.result hr hsol
    exact mirrors_result (Built.inv hr.built) _ _
  obtain ⟨chart, P, O, A, I, C, S, D, X, h0, h1, h2, h3, h4, h5, h6, h7, h8, h9, h10⟩ :=
    C60_bands_partial hr.built hm ha hn h1s hsrc hk hh hs (pk := "used") (.inl rfl)
      (ck := "asked") (.inr rfl)
  refine ⟨chart, h0, fun t ht => ?_⟩
  have htop := stack_tops hr.built h1 h2 h3 h4 h5 h6 h7 h8 h9 h10 ht
  have hbal := C19_balance_partial hr hself hsol hk hf g d n hn t ht
  unfold incoming outgoing at hbal
  have e1 : sumL (productionBands s r g d n "used" k) (fun e => e.2.2 t) =
      sumI n.productions fun _ i => (dispatchOf s r k).prod g d i t := by
    unfold productionBands; rw [sumL_map]; rfl
  have e2 : sumL (consumptionBands s r g d n "asked" k) (fun e => e.2.2 t) =
      sumI n.consumptions (fun c i => val c.quantity k t - (dispatchOf s r k).lol g d i t) +
      sumI n.consumptions fun _ i => (dispatchOf s r k).lol g d i t := by
    unfold consumptionBands
    rw [sumL_map, sumI_eq, sumI_eq, ← sumL_add]
    refine sumL_congr fun p _ => ?_
    simp
  rw [e1, e2] at htop
  linarith

/-! ### Concrete cases -/

theorem noSelfLink_of {s : Study} (h : ∀ p ∈ s.networks, ∀ q ∈ p.2.nodes, ∀ l ∈ q.2.links, l.dest ≠ q.1) :
    NoSelfLink s := by
  rintro g d n ⟨net, h1, h2⟩ l hl
  exact h _ h1 _ h2 l hl

/-- a sort with the highest first -/
def highestFirst : Viewer.SortValues := fun f l => l.insertionSort fun a b => f b ≤ f a

theorem highestFirst_descending : Descending highestFirst := by
  intro f l
  have : Std.Total fun a b : Viewer.Line => f b ≤ f a := ⟨fun a b => le_total _ _⟩
  have : IsTrans Viewer.Line fun a b => f b ≤ f a := ⟨fun a b c h1 h2 => le_trans h2 h1⟩
  exact ⟨List.perm_insertionSort _ _, List.pairwise_insertionSort _ _⟩

/-- node `b` has a production, a consumption, a storage, an import and a converter that brings energy -/
example : ∃ chart P O A I C S D X,
    Viewer.stack anAnalyzer highestFirst "elec" "b" (1 : ℕ) "used" "given" = .ok chart ∧
      Piled anStudy.horizon (P ++ O ++ A ++ I) chart.areas ∧
      RankedOf anStudy (productionBands anStudy anResult "elec" "b" (inNode anStudy "elec" "b") "used" 1) P ∧
      RankedOf anStudy (outflowBands anStudy anResult "elec" "b" (inNode anStudy "elec" "b") 1) O ∧
      BandsOf anStudy (arrivalBands anStudy anResult "elec" "b" 1) A ∧
      ExchangeOf anStudy "import" (fun t => max 0 (-balanceOf anStudy anResult "elec" "b"
        (inNode anStudy "elec" "b") 1 t)) I ∧
      Piled anStudy.horizon (C ++ S ++ D ++ X) chart.lines.reverse ∧
      RankedOf anStudy (consumptionBands anStudy anResult "elec" "b" (inNode anStudy "elec" "b") "given" 1) C ∧
      RankedOf anStudy (inflowBands anStudy anResult "elec" "b" (inNode anStudy "elec" "b") 1) S ∧
      BandsOf anStudy (departureBands anStudy anResult "elec" "b" 1) D ∧
      ExchangeOf anStudy "export" (fun t => max 0 (balanceOf anStudy anResult "elec" "b"
        (inNode anStudy "elec" "b") 1 t)) X :=
  C60_bands_partial anStudy_built anResult_mirrors anAnalyzer_init anNode_b (fun _ => by decide +kernel)
    (fun _ => ⟨RatiosNonzero.usable anStudy_ratios, by decide +kernel⟩) (k := 1) (by decide +kernel) (by decide +kernel) highestFirst_descending
    (.inl rfl) (.inl rfl)

/-- 2 produced and stored, then 1 released and consumed -/
example : ∃ r a chart, solveLp (fun _ => tankAnswer) ⟨[], [], 0, 0⟩ tank = .ok r ∧
    Analyzer.init (fun _ _ _ => .nan) tank r = .ok a ∧
    Viewer.stack a highestFirst "n" "a" (0 : ℕ) "used" "given" = .ok chart ∧
    ∀ t < tank.horizon, areasTop chart t = linesTop chart t := by
  have hr := Ready.solve tank_ready (fun _ => tankAnswer) ⟨[], [], 0, 0⟩
  obtain ⟨a, ha⟩ := init_total tank_built (mirrors_result (Built.inv tank_built) _ _) (fun _ _ _ => .nan)
    tank_ready.complete (by decide +kernel) (by decide +kernel)
  obtain ⟨chart, h1, h2⟩ := C60_partial tank_ready (noSelfLink_of (by decide +kernel)) hr ha
    (hasNode_inNode (g := "n") (d := "a") (by decide +kernel)) (fun _ => by decide +kernel)
    (fun _ => ⟨RatiosNonzero.usable tank_nonzero, by decide +kernel⟩) (k := 0) (by decide +kernel) tankAnswer_feasible (by decide +kernel)
    highestFirst_descending
  exact ⟨_, a, chart, hr, ha, h1, h2⟩

def twoTankCalls : List Call :=
  [.studyNetwork "n", .netNode 0 "a", .nodeConsumption 0 "load" (.num 100) (.num 1),
   .nodeStorage 0 ⟨"s1", .num 10, .num 1, .num 1, .num 0, 5, .num 1⟩, .netNode 0 "b",
   .nodeStorage 0 ⟨"s2", .num 10, .num 1, .num 1, .num 0, 5, .num 1⟩]

/-- two nodes with a storage each; the first one serves a consumption -/
def twoTank : Study := ((World.start 1 1).run twoTankCalls).study

theorem twoTank_built : Built twoTank := ⟨1, 1, twoTankCalls, rawCalls_of (by decide +kernel), rfl⟩

theorem twoTank_ready : Ready twoTank where
  built := twoTank_built
  complete := by unfold CompleteConverters; decide +kernel
  ratios := RatiosNonzero.usable (by unfold RatiosNonzero; decide +kernel)
  clean := cleanSources_of (by decide +kernel)

def twoTankAnswer : Var → ℚ
  | .fout _ _ "a" _ => 1
  | .cap _ _ "a" _ => 4
  | .cap .. => 5
  | _ => 0

theorem twoTankAnswer_feasible : Answers (fun _ => twoTankAnswer) twoTank 0 Cmd.Feasible := by
  intro steps log h
  obtain rfl := logOf_eq h
  exact Cmd.feasible_of_check (by decide +kernel)

/-- C60 is false with several storages: the stack of a node whose storage is not in the table raises. -/
theorem C60_raises_refuted : ∃ s solver b r junk a, Ready s ∧ NoSelfLink s ∧ solveLp solver b s = .ok r ∧
    Analyzer.init junk s r = .ok a ∧ (∃ n, HasNode s "n" "a" n) ∧ Answers solver s 0 Cmd.Feasible ∧
    Viewer.stack a highestFirst "n" "a" 0 "used" "given" = .error .keyError := by
  have hr := Ready.solve twoTank_ready (fun _ => twoTankAnswer) ⟨[], [], 0, 0⟩
  have h : charted twoTank (fun _ => twoTankAnswer) (fun a =>
      pure (Viewer.stack a highestFirst "n" "a" 0 "used" "given")) = .ok (.error .keyError) := by
    decide +kernel
  rcases charted_cases h with ⟨e, _, h1⟩ | ⟨a, h1, h2⟩
  · cases h1
  · exact ⟨twoTank, _, _, _, _, a, twoTank_ready, noSelfLink_of (by decide +kernel), hr, h1,
      ⟨_, hasNode_inNode (by decide +kernel)⟩, twoTankAnswer_feasible, Except.ok.inj h2⟩

def pairTankCalls : List Call :=
  [.studyNetwork "n", .netNode 0 "a", .nodeConsumption 0 "load" (.num 100) (.num 1),
   .nodeStorage 0 ⟨"s1", .num 10, .num 1, .num 1, .num 0, 5, .num 1⟩,
   .nodeStorage 0 ⟨"s2", .num 10, .num 1, .num 1, .num 0, 5, .num 1⟩]

/-- two storages in a node; the first one serves the consumption -/
def pairTank : Study := ((World.start 1 1).run pairTankCalls).study

theorem pairTank_built : Built pairTank := ⟨1, 1, pairTankCalls, rawCalls_of (by decide +kernel), rfl⟩

theorem pairTank_ready : Ready pairTank where
  built := pairTank_built
  complete := by unfold CompleteConverters; decide +kernel
  ratios := RatiosNonzero.usable (by unfold RatiosNonzero; decide +kernel)
  clean := cleanSources_of (by decide +kernel)

def pairTankAnswer : Var → ℚ
  | .fout _ _ _ 0 => 1
  | .cap _ _ _ 0 => 4
  | .cap .. => 5
  | _ => 0

theorem pairTankAnswer_feasible : Answers (fun _ => pairTankAnswer) pairTank 0 Cmd.Feasible := by
  intro steps log h
  obtain rfl := logOf_eq h
  exact Cmd.feasible_of_check (by decide +kernel)

/-- C60 is false with several storages: the stack of areas misses what a storage brings. -/
theorem C60_refuted : ∃ s solver b r junk a chart, Ready s ∧ NoSelfLink s ∧ solveLp solver b s = .ok r ∧
    Analyzer.init junk s r = .ok a ∧ (∃ n, HasNode s "n" "a" n) ∧ Answers solver s 0 Cmd.Feasible ∧
    Viewer.stack a highestFirst "n" "a" 0 "used" "given" = .ok chart ∧
    areasTop chart 0 = 0 ∧ linesTop chart 0 = 1 := by
  have hr := Ready.solve pairTank_ready (fun _ => pairTankAnswer) ⟨[], [], 0, 0⟩
  have h : charted pairTank (fun _ => pairTankAnswer) (fun a =>
      Viewer.stack a highestFirst "n" "a" 0 "used" "given") = .ok ⟨[(.str "s2", [0])], [(.str "s2", [1]), (.str "load", [1])]⟩ := by
    decide +kernel
  rcases charted_cases h with ⟨e, _, h1⟩ | ⟨a, h1, h2⟩
  · cases h1
  · exact ⟨pairTank, _, _, _, _, a, _, pairTank_ready, noSelfLink_of (by decide +kernel), hr, h1,
      ⟨_, hasNode_inNode (by decide +kernel)⟩, pairTankAnswer_feasible, h2, rfl, rfl⟩

end Hadar.Props
