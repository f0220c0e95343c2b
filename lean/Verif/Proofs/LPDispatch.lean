import Verif.Proofs.LPResult
import Verif.Proofs.LPFeas

/-!
# What a result of the optimizer says, against what the linear problem asks
-/

namespace Hadar

open Spec

theorem Spec.SameFlows.symm {s : Study} {D D' : Dispatch} (h : SameFlows s D D') : SameFlows s D' D where
  lol := fun g d n hn i hi t ht => (h.lol g d n hn i hi t ht).symm
  prod := fun g d n hn i hi t ht => (h.prod g d n hn i hi t ht).symm
  cap := fun g d n hn i hi t ht => (h.cap g d n hn i hi t ht).symm
  fin := fun g d n hn i hi t ht => (h.fin g d n hn i hi t ht).symm
  fout := fun g d n hn i hi t ht => (h.fout g d n hn i hi t ht).symm
  link := fun g d n hn i hi t ht => (h.link g d n hn i hi t ht).symm
  convSrc := fun p hp g d hk t ht => (h.convSrc p hp g d hk t ht).symm
  convDest := fun p hp t ht => (h.convDest p hp t ht).symm

theorem lt_of_getElem?_some {α : Type} {l : List α} {i : ℕ} {a : α} (h : l[i]? = some a) :
    i < l.length := by
  obtain ⟨h, _⟩ := List.getElem?_eq_some_iff.mp h
  exact h

theorem Bounds.congr {s : Study} {k : ℕ} {D D' : Dispatch} (h : SameFlows s D D')
    (hb : Bounds s k D) : Bounds s k D' where
  consumptions := fun g d n hn i c hc t ht => by
    rw [← h.lol g d n hn i (lt_of_getElem?_some hc) t ht]; exact hb.consumptions g d n hn i c hc t ht
  productions := fun g d n hn i c hc t ht => by
    rw [← h.prod g d n hn i (lt_of_getElem?_some hc) t ht]; exact hb.productions g d n hn i c hc t ht
  storages := fun g d n hn i c hc t ht => by
    rw [← h.cap g d n hn i (lt_of_getElem?_some hc) t ht,
      ← h.fin g d n hn i (lt_of_getElem?_some hc) t ht,
      ← h.fout g d n hn i (lt_of_getElem?_some hc) t ht]; exact hb.storages g d n hn i c hc t ht
  links := fun g d n hn i c hc t ht => by
    rw [← h.link g d n hn i (lt_of_getElem?_some hc) t ht]; exact hb.links g d n hn i c hc t ht
  convSrc := fun p hp g d r hr t ht => by
    rw [← h.convSrc p hp g d (List.mem_map.mpr ⟨_, hr, rfl⟩) t ht]; exact hb.convSrc p hp g d r hr t ht
  convDest := fun p hp t ht => by
    rw [← h.convDest p hp t ht]; exact hb.convDest p hp t ht

theorem sumI_congr {α : Type} {l : List α} {f g : α → ℕ → ℚ}
    (h : ∀ a i, l[i]? = some a → f a i = g a i) : sumI l f = sumI l g := by
  rw [sumI_eq, sumI_eq]
  apply sumL_congr
  intro p hp
  exact h _ _ (by simpa [List.mem_zipIdx_iff_getElem?] using hp)

theorem imports_congr {s : Study} {D D' : Dispatch} (h : SameFlows s D D') (g d : String) {t : ℕ}
    (ht : t < s.horizon) : imports s D g d t = imports s D' g d t := by
  unfold imports
  apply sumL_congr
  intro p hp
  apply sumL_congr
  intro q hq
  obtain ⟨hp1, hp2⟩ := List.mem_filter.mp hp
  have hg : p.1 = g := by simpa using hp2
  apply sumI_congr
  intro l i hl
  by_cases hd : l.dest = d
  · rw [if_pos hd, if_pos hd]
    exact h.link g q.1 q.2 ⟨p.2, by rw [← hg]; exact hp1, hq⟩ i (lt_of_getElem?_some hl) t ht
  · rw [if_neg hd, if_neg hd]

theorem incoming_congr {s : Study} {D D' : Dispatch} (h : SameFlows s D D') {g d : String}
    {n : InputNode} (hn : HasNode s g d n) {t : ℕ} (ht : t < s.horizon) :
    incoming s D g d n t = incoming s D' g d n t := by
  unfold incoming
  rw [imports_congr h g d ht,
    sumI_congr (l := n.productions) (fun _ i hi => h.prod g d n hn i (lt_of_getElem?_some hi) t ht),
    sumI_congr (l := n.storages) (fun _ i hi => h.fout g d n hn i (lt_of_getElem?_some hi) t ht)]
  congr 1
  unfold fromConverters
  apply sumL_congr
  intro p hp
  rw [h.convDest p hp t ht]

theorem outgoing_congr {s : Study} {k : ℕ} {D D' : Dispatch} (h : SameFlows s D D') {g d : String}
    {n : InputNode} (hn : HasNode s g d n) {t : ℕ} (ht : t < s.horizon) :
    outgoing s k D g d n t = outgoing s k D' g d n t := by
  unfold outgoing
  rw [sumI_congr (l := n.consumptions) (fun (c : Consumption) i hi => by
      rw [h.lol g d n hn i (lt_of_getElem?_some hi) t ht]),
    sumI_congr (l := n.storages) (fun _ i hi => h.fin g d n hn i (lt_of_getElem?_some hi) t ht),
    sumI_congr (l := n.links) (fun _ i hi => h.link g d n hn i (lt_of_getElem?_some hi) t ht)]
  congr 1
  unfold toConverters
  apply sumL_congr
  intro p hp
  apply sumL_congr
  intro q hq
  by_cases hk : q.1 = [g, d]
  · rw [if_pos hk, if_pos hk, h.convSrc p hp g d (List.mem_map.mpr ⟨q, hq, hk⟩) t ht]
  · rw [if_neg hk, if_neg hk]

theorem selfFlow_congr {s : Study} {D D' : Dispatch} (h : SameFlows s D D') {g d : String}
    {n : InputNode} (hn : HasNode s g d n) {t : ℕ} (ht : t < s.horizon) :
    selfFlow D g d n t = selfFlow D' g d n t := by
  unfold selfFlow
  apply sumI_congr
  intro l i hl
  rw [h.link g d n hn i (lt_of_getElem?_some hl) t ht]

theorem Evolves.congr {s : Study} {k : ℕ} {D D' : Dispatch} (h : SameFlows s D D') {g d : String}
    {n : InputNode} (hn : HasNode s g d n) {i : ℕ} {c : Storage} (hc : n.storages[i]? = some c)
    {t : ℕ} (ht : t < s.horizon) (he : Evolves k D g d i c t) : Evolves k D' g d i c t := by
  have hi := lt_of_getElem?_some hc
  unfold Evolves at he ⊢
  rw [← h.cap g d n hn i hi t ht, ← h.fin g d n hn i hi t ht, ← h.fout g d n hn i hi t ht, he]
  cases t with
  | zero => rfl
  | succ t =>
    simp only [levelBefore]
    rw [h.cap g d n hn i hi t (by omega)]

theorem RatiosOk.congr {s : Study} {k : ℕ} {D D' : Dispatch} (h : SameFlows s D D')
    (hr : RatiosOk s k D) : RatiosOk s k D' := by
  intro p hp g d r hr' t ht
  rw [← h.convSrc p hp g d (List.mem_map.mpr ⟨_, hr', rfl⟩) t ht, ← h.convDest p hp t ht]
  exact hr p hp g d r hr' t ht

theorem CodeFeasible.congr {s : Study} {k : ℕ} {D D' : Dispatch} (h : SameFlows s D D')
    (hf : CodeFeasible s k D) : CodeFeasible s k D' where
  bounds := Bounds.congr h hf.bounds
  balance := fun g d n hn t ht => by
    rw [← incoming_congr h hn ht, ← selfFlow_congr h hn ht, ← outgoing_congr h hn ht]
    exact hf.balance g d n hn t ht
  storages := fun g d n hn c hc t ht =>
    Evolves.congr h hn (i := 0) (by rw [← List.head?_eq_getElem?]; exact hc) ht
      (hf.storages g d n hn c hc t ht)
  ratios := RatiosOk.congr h hf.ratios

theorem cost_congr {s : Study} {k : ℕ} {D D' : Dispatch} (h : SameFlows s D D') :
    cost s k D = cost s k D' := by
  unfold cost
  apply sumL_congr
  intro t ht
  have ht : t < s.horizon := by simpa using ht
  congr 1
  · apply sumL_congr
    intro p hp
    apply sumL_congr
    intro q hq
    have hn : HasNode s p.1 q.1 q.2 := ⟨p.2, hp, hq⟩
    unfold nodeCost
    rw [sumI_congr (l := q.2.consumptions) (fun (c : Consumption) i hi => by
        rw [h.lol _ _ _ hn i (lt_of_getElem?_some hi) t ht]),
      sumI_congr (l := q.2.productions) (fun (c : Production) i hi => by
        rw [h.prod _ _ _ hn i (lt_of_getElem?_some hi) t ht]),
      sumI_congr (l := q.2.storages) (fun (c : Storage) i hi => by
        rw [h.cap _ _ _ hn i (lt_of_getElem?_some hi) t ht]),
      sumI_congr (l := q.2.links) (fun (c : Link) i hi => by
        rw [h.link _ _ _ hn i (lt_of_getElem?_some hi) t ht])]
  · apply sumL_congr
    intro p hp
    rw [h.convDest p hp t ht]

/-! ### A dispatch as values of variables -/

def toVars (D : Dispatch) : Var → ℚ
  | .lol t g d i => D.lol g d i t
  | .prod t g d i => D.prod g d i t
  | .cap t g d i => D.cap g d i t
  | .fin t g d i => D.fin g d i t
  | .fout t g d i => D.fout g d i t
  | .link t g d i => D.link g d i t
  | .convSrc t c [g, d] => D.convSrc c (g, d) t
  | .convSrc _ _ _ => 0
  | .convDest t c => D.convDest c t

theorem ofVars_toVars (D : Dispatch) : ofVars (toVars D) = D := by
  cases D; rfl

/-! ### The dispatch of a result -/

theorem inNode_eq {s : Study} (hi : StudyInv s) {g d : String} {n : InputNode}
    (hn : HasNode s g d n) : inNode s g d = n := by
  obtain ⟨net, hg, hd⟩ := hn
  unfold inNode
  rw [hi.get?_network hg]
  simp only [Option.bind_some]
  rw [hi.get?_node hg hd]
  rfl

theorem outNode_eq {s : Study} (hi : StudyInv s) {g d : String} {n : InputNode}
    (hn : HasNode s g d n) (X : Vals) (b : Benchmark) :
    outNode (resultAll s X b) g d = nodeAll s.nbScn s.horizon X g d n := by
  obtain ⟨net, hg, hd⟩ := hn
  unfold outNode
  have e1 : (resultAll s X b).networks.get? g =
      some ⟨net.nodes.map fun q => (q.1, nodeAll s.nbScn s.horizon X g q.1 q.2)⟩ :=
    Dict.get?_map_mem (key := fun p : String × InputNetwork => p.1) hi.names.networks hg
  have e2 : Dict.get? (net.nodes.map fun q => (q.1, nodeAll s.nbScn s.horizon X g q.1 q.2)) d =
      some (nodeAll s.nbScn s.horizon X g d n) :=
    Dict.get?_map_mem (key := fun p : String × InputNode => p.1) (hi.names.nodes _ hg) hd
  rw [e1]
  simp only [Option.bind_some]
  rw [e2]
  rfl

theorem cellAt_zipIdx {α β : Type} (l : List α) (i : ℕ) (hi : i < l.length) (F : α × ℕ → β)
    (f : β → NdArray) (k t : ℕ) :
    cellAt (l.zipIdx.map F) i f k t = cell (f (F (l[i], i))) k t := by
  unfold cellAt
  have : (l.zipIdx.map F)[i]? = some (F (l[i], i)) := by
    simp [hi]
  rw [this]

theorem agree_result {s : Study} (hi : StudyInv s) (X : Vals) (b : Benchmark) {k : ℕ}
    (hk : k < s.nbScn) : SameFlows s (ofVars (X k)) (dispatchOf s (resultAll s X b) k) where
  lol := fun g d n hn i hlt t ht => by
    simp only [dispatchOf, inNode_eq hi hn, outNode_eq hi hn]
    rw [List.getElem?_eq_getElem hlt]
    simp only [nodeAll]
    rw [cellAt_zipIdx _ _ hlt, cell_ofCells _ hk ht]
    simp [ofVars]
  prod := fun g d n hn i hlt t ht => by
    simp only [dispatchOf, outNode_eq hi hn, nodeAll]
    rw [cellAt_zipIdx _ _ hlt, cell_ofCells _ hk ht]; rfl
  cap := fun g d n hn i hlt t ht => by
    simp only [dispatchOf, outNode_eq hi hn, nodeAll]
    rw [cellAt_zipIdx _ _ hlt, cell_ofCells _ hk ht]; rfl
  fin := fun g d n hn i hlt t ht => by
    simp only [dispatchOf, outNode_eq hi hn, nodeAll]
    rw [cellAt_zipIdx _ _ hlt, cell_ofCells _ hk ht]; rfl
  fout := fun g d n hn i hlt t ht => by
    simp only [dispatchOf, outNode_eq hi hn, nodeAll]
    rw [cellAt_zipIdx _ _ hlt, cell_ofCells _ hk ht]; rfl
  link := fun g d n hn i hlt t ht => by
    simp only [dispatchOf, outNode_eq hi hn, nodeAll]
    rw [cellAt_zipIdx _ _ hlt, cell_ofCells _ hk ht]; rfl
  convSrc := fun p hp g d hr t ht => by
    have e : (resultAll s X b).converters.get? p.1 = some (convAll s.nbScn s.horizon X p.1 p.2) :=
      Dict.get?_map_mem (key := fun p : String × Converter => p.1) hi.names.converters hp
    obtain ⟨q, hq, hq1⟩ := List.mem_map.mp hr
    have e2 : (convAll s.nbScn s.horizon X p.1 p.2).flowSrc.get? [g, d] =
        some (ofCells s.nbScn s.horizon fun k t => X k (.convSrc t p.1 [g, d])) := by
      have := Dict.get?_map_mem (key := fun q : List String × NumVal => q.1)
        (F := fun q => ofCells s.nbScn s.horizon fun k t => X k (.convSrc t p.1 q.1))
        (hi.names.sources p hp) hq
      rw [hq1] at this
      exact this
    simp only [dispatchOf, e, Option.bind_some, e2]
    rw [cell_ofCells _ hk ht]; rfl
  convDest := fun p hp t ht => by
    have e : (resultAll s X b).converters.get? p.1 = some (convAll s.nbScn s.horizon X p.1 p.2) :=
      Dict.get?_map_mem (key := fun p : String × Converter => p.1) hi.names.converters hp
    simp only [dispatchOf, e, convAll]
    rw [cell_ofCells _ hk ht]; rfl

theorem codeFeasible_iff {s : Study} (hi : StudyInv s) {k : ℕ} (hk : k < s.nbScn) (X : Vals)
    (b : Benchmark) : Cmd.Feasible (fullLog s k) (X k) ↔
      CodeFeasible s k (dispatchOf s (resultAll s X b) k) := by
  rw [feasible_iff hi k (X k)]
  exact ⟨CodeFeasible.congr (agree_result hi X b hk),
    CodeFeasible.congr (agree_result hi X b hk).symm⟩

theorem objective_result {s : Study} (hi : StudyInv s) {k : ℕ} (hk : k < s.nbScn) (X : Vals)
    (b : Benchmark) : Cmd.objective (fullLog s k) (X k) =
      cost s k (dispatchOf s (resultAll s X b) k) := by
  rw [objective_eq hi k (X k)]
  exact cost_congr (agree_result hi X b hk)

theorem optimal_result {s : Study} (hi : StudyInv s) {k : ℕ} (hk : k < s.nbScn) (X : Vals)
    (b : Benchmark) (ho : Cmd.Optimal (fullLog s k) (X k)) :
    CodeFeasible s k (dispatchOf s (resultAll s X b) k) ∧
    ∀ D, CodeFeasible s k D → cost s k (dispatchOf s (resultAll s X b) k) ≤ cost s k D := by
  refine ⟨(codeFeasible_iff hi hk X b).mp ho.1, ?_⟩
  intro D hD
  rw [← objective_result hi hk X b]
  have := ho.2 (toVars D) ((feasible_iff hi k _).mpr (by rw [ofVars_toVars]; exact hD))
  rwa [objective_eq hi k (toVars D), ofVars_toVars] at this

/-! ### The problem of the code against the documented problem -/

theorem selfFlow_zero {s : Study} (h : NoSelfLink s) {g d : String} {n : InputNode}
    (hn : HasNode s g d n) (D : Dispatch) (t : ℕ) : selfFlow D g d n t = 0 := by
  unfold selfFlow
  rw [sumI_eq]
  apply sumL_eq_zero
  intro p hp
  rw [if_neg]
  exact h g d n hn p.1 (List.fst_mem_of_mem_zipIdx hp)

theorem feasible_of_code {s : Study} (h1 : NoSelfLink s) (h2 : OneStorage s) {k : ℕ} {D : Dispatch}
    (h : CodeFeasible s k D) : Spec.Feasible s k D where
  bounds := h.bounds
  balanced := fun g d n hn t ht => by
    rw [← h.balance g d n hn t ht, selfFlow_zero h1 hn, add_zero]
  storages := fun g d n hn i c hc t ht => by
    have := h2 g d n hn
    have hi := lt_of_getElem?_some hc
    have : i = 0 := by omega
    subst this
    exact h.storages g d n hn c (by rw [List.head?_eq_getElem?]; exact hc) t ht
  ratios := h.ratios

theorem code_of_feasible {s : Study} (h1 : NoSelfLink s) {k : ℕ} {D : Dispatch}
    (h : Spec.Feasible s k D) : CodeFeasible s k D where
  bounds := h.bounds
  balance := fun g d n hn t ht => by
    rw [h.balanced g d n hn t ht, selfFlow_zero h1 hn, add_zero]
  storages := fun g d n hn c hc t ht =>
    h.storages g d n hn 0 c (by rw [← List.head?_eq_getElem?]; exact hc) t ht
  ratios := h.ratios

end Hadar
