import Verif.Spec.Tolerance
import Verif.Proofs.Worth
import Verif.Proofs.LPReady
import Verif.Proofs.Energy

/-!
# Answers up to a tolerance
-/

namespace Hadar

open Spec Cmd

variable {s : Study} {k : ℕ} {P : Prices} {e : ℚ}

theorem Spec.Near.of_sub {x y v c : ℚ} (h : c - e ≤ v ∧ v ≤ c + e) (hv : v - c = x - y) : Near e x y :=
  ⟨by linarith [h.1, h.2], by linarith [h.1, h.2]⟩

theorem Spec.NearAnswer.var {log : List Cmd} {x : Var → ℚ} (h : NearAnswer e log x) {v : Var} {ub : ℚ}
    (hm : Cmd.numVar v 0 ub ∈ log) : NearLimits e (x v) ub := by
  have := h.vars _ _ _ hm
  exact ⟨by linarith [this.1], this.2⟩

theorem nearBounds_of {x : Var → ℚ} (hi : StudyInv s) (hv : NearAnswer e (fullLog s k) x) : NearBounds e s k (ofVars x) := by
  refine ⟨?_, ?_, ?_, ?_, ?_, ?_⟩
  · intro g d n hn i c hi t ht
    refine hv.var (v := .lol t g d i) (mem_timeLog_node hn ht ?_)
    refine List.mem_append_left _ (List.mem_append_left _ (List.mem_append_left _ ?_))
    simp only [LPNode.numVars, lpNodeOf, List.mem_append, List.map_map, List.mem_map]
    exact .inl (.inl (.inl ⟨(c, i), mem_zipIdx_iff.mpr hi, rfl⟩))
  · intro g d n hn i c hi t ht
    refine hv.var (v := .prod t g d i) (mem_timeLog_node hn ht ?_)
    refine List.mem_append_left _ (List.mem_append_left _ (List.mem_append_left _ ?_))
    simp only [LPNode.numVars, lpNodeOf, List.mem_append, List.map_map, List.mem_map]
    exact .inl (.inl (.inr ⟨(c, i), mem_zipIdx_iff.mpr hi, rfl⟩))
  · intro g d n hn i c hi t ht
    have key : ∀ a, a ∈ [Cmd.numVar (.cap t g d i) 0 (val c.capacity k t),
        .numVar (.fin t g d i) 0 (val c.flowIn k t), .numVar (.fout t g d i) 0 (val c.flowOut k t)] →
        a ∈ fullLog s k := by
      intro a ha
      refine mem_timeLog_node hn ht ?_
      refine List.mem_append_left _ (List.mem_append_left _ (List.mem_append_left _ ?_))
      simp only [LPNode.numVars, lpNodeOf, List.mem_append, List.flatMap_map, List.mem_flatMap]
      exact .inl (.inr ⟨(c, i), mem_zipIdx_iff.mpr hi, ha⟩)
    exact ⟨hv.var (key _ (by simp)), hv.var (key _ (by simp)), hv.var (key _ (by simp))⟩
  · intro g d n hn i c hi t ht
    refine hv.var (v := .link t g d i) (mem_timeLog_node hn ht ?_)
    refine List.mem_append_left _ (List.mem_append_left _ (List.mem_append_left _ ?_))
    simp only [LPNode.numVars, lpNodeOf, List.mem_append, List.map_map, List.mem_map]
    exact .inr ⟨(c, i), mem_zipIdx_iff.mpr hi, rfl⟩
  · intro p hp g d r hr t ht
    have hm : srcVar (.convSrc t p.1 [g, d]) (fval p.2.max k t) (val r k t) ∈ fullLog s k := by
      refine mem_timeLog_conv hp ht ?_
      refine List.mem_append_left _ (List.mem_append_left _ (List.mem_append_left _ ?_))
      rw [← (hi.convs p hp).name]
      exact List.mem_append_left _ (List.mem_map.mpr ⟨_, hr, rfl⟩)
    rcases srcVar_cases (.convSrc t p.1 [g, d]) (fval p.2.max k t) (val r k t) with ⟨hz, e'⟩ | ⟨hz, e'⟩ <;> rw [e'] at hm
    · have := (hv.varsInf _ _ _ hm).1
      rw [zero_sub] at this
      exact ⟨this, fun h => absurd hz h⟩
    · exact ⟨(hv.var hm).1, fun _ => (hv.var hm).2⟩
  · intro p hp t ht
    refine hv.var (v := .convDest t p.1) (mem_timeLog_conv hp ht ?_)
    refine List.mem_append_left _ (List.mem_append_left _ (List.mem_append_left _ ?_))
    rw [← (hi.convs p hp).name]
    exact List.mem_append_right _ (by simp)

theorem nearFeasible_of {x : Var → ℚ} (hi : StudyInv s) (hself : NoSelfLink s) (h1 : OneStorage s)
    (hv : NearAnswer e (fullLog s k) x) : NearFeasible e s k (ofVars x) := by
  refine ⟨nearBounds_of hi hv, ?_, ?_, ?_⟩
  · intro g d n hn t ht
    have hm : Cmd.constraint (.adeq t g d) (sumI n.consumptions fun c _ => val c.quantity k t)
        (sumI n.consumptions fun c _ => val c.quantity k t) ∈ fullLog s k := by
      refine mem_timeLog_node hn ht ?_
      refine List.mem_append_left _ (List.mem_append_left _ (List.mem_append_right _ ?_))
      unfold AdequacyBuilder.addNode
      rw [load_eq]
      simp
    have := hv.rows _ _ _ hm
    rw [value_adeq hi hn ht, selfFlow_zero hself hn] at this
    exact Near.of_sub this (by ring)
  · intro g d n hn i c hs t ht
    obtain rfl : i = 0 := by
      have := h1 g d n hn
      have := lt_of_getElem?_some hs
      omega
    have hs : n.storages.head? = some c := by rw [List.head?_eq_getElem?]; exact hs
    have hm : Cmd.constraint (.stor t g d c.name) (if t = 0 then c.initCapacity else 0)
        (if t = 0 then c.initCapacity else 0) ∈ fullLog s k := by
      refine mem_timeLog_node hn ht ?_
      refine List.mem_append_left _ (List.mem_append_right _ ?_)
      unfold storLog
      cases hst : n.storages with
      | nil => rw [hst] at hs; simp at hs
      | cons a l =>
        rw [hst] at hs
        simp only [List.head?_cons, Option.some.injEq] at hs
        subst hs
        dsimp only
        split_ifs <;> simp
    have := hv.rows _ _ _ hm
    obtain ⟨net, hg, hd⟩ := hn
    rw [value_stor hi hg hd hs ht] at this
    apply Near.of_sub this
    rcases t with _ | t
    · simp only [levelBefore, ofVars, if_true]
      ring
    · simp only [levelBefore, ofVars, Nat.succ_ne_zero, if_false, Nat.add_sub_cancel]
      ring
  · intro p hp g d r hr t ht
    have hm : Cmd.constraint (.mix t p.1 [g, d]) 0 0 ∈ fullLog s k := by
      refine mem_timeLog_conv hp ht ?_
      refine List.mem_append_left _ (List.mem_append_right _ ?_)
      rw [← (hi.convs p hp).name]
      exact List.mem_flatMap.mpr ⟨_, hr, by simp⟩
    have := hv.rows _ _ _ hm
    rw [value_mix hi hp hr ht] at this
    apply Near.of_sub this
    simp only [ofVars]
    ring

theorem NearFeasible.congr {D D' : Dispatch} (h : SameFlows s D D') (hD : NearFeasible e s k D) : NearFeasible e s k D' := by
  refine ⟨⟨?_, ?_, ?_, ?_, ?_, ?_⟩, ?_, ?_, ?_⟩
  · intro g d n hn i c hc t ht
    rw [← h.lol g d n hn i (lt_of_getElem?_some hc) t ht]
    exact hD.bounds.consumptions g d n hn i c hc t ht
  · intro g d n hn i c hc t ht
    rw [← h.prod g d n hn i (lt_of_getElem?_some hc) t ht]
    exact hD.bounds.productions g d n hn i c hc t ht
  · intro g d n hn i c hc t ht
    rw [← h.cap g d n hn i (lt_of_getElem?_some hc) t ht, ← h.fin g d n hn i (lt_of_getElem?_some hc) t ht,
      ← h.fout g d n hn i (lt_of_getElem?_some hc) t ht]
    exact hD.bounds.storages g d n hn i c hc t ht
  · intro g d n hn i c hc t ht
    rw [← h.link g d n hn i (lt_of_getElem?_some hc) t ht]
    exact hD.bounds.links g d n hn i c hc t ht
  · intro p hp g d r hr t ht
    rw [← h.convSrc p hp g d (List.mem_map.mpr ⟨_, hr, rfl⟩) t ht]
    exact hD.bounds.convSrc p hp g d r hr t ht
  · intro p hp t ht
    rw [← h.convDest p hp t ht]
    exact hD.bounds.convDest p hp t ht
  · intro g d n hn t ht
    rw [← incoming_congr h hn ht, ← outgoing_congr h hn ht]
    exact hD.balanced g d n hn t ht
  · intro g d n hn i c hc t ht
    have hl := lt_of_getElem?_some hc
    have e1 : levelBefore D' g d i c.initCapacity t = levelBefore D g d i c.initCapacity t := by
      rcases t with _ | t
      · rfl
      · exact (h.cap g d n hn i hl t (by omega)).symm
    rw [e1, ← h.cap g d n hn i hl t ht, ← h.fin g d n hn i hl t ht, ← h.fout g d n hn i hl t ht]
    exact hD.storages g d n hn i c hc t ht
  · intro p hp g d r hr t ht
    rw [← h.convSrc p hp g d (List.mem_map.mpr ⟨_, hr, rfl⟩) t ht, ← h.convDest p hp t ht]
    exact hD.ratios p hp g d r hr t ht

theorem level_near {D : Dispatch} (hD : NearFeasible e s k D) {g d : String} {n : InputNode} (hn : HasNode s g d n) {i : ℕ} {c : Storage}
    (hc : n.storages[i]? = some c) (t : ℕ) (ht : t < s.horizon) :
    Near ((t + 1) * e) (D.cap g d i t) (levelFrom k D g d i c t) := by
  induction t with
  | zero =>
    have := hD.storages g d n hn i c hc 0 ht
    unfold levelFrom
    simp only [Near, levelBefore] at this
    simp only [Near, sumL, zero_add, List.range_one, List.map_cons, List.map_nil, List.sum_cons, List.sum_nil, add_zero, Nat.cast_zero, one_mul]
    exact ⟨by linarith [this.1], by linarith [this.2]⟩
  | succ t ih =>
    have ih := ih (by omega)
    have := hD.storages g d n hn i c hc (t + 1) ht
    unfold levelFrom at ih ⊢
    rw [List.range_succ, sumL_append]
    simp only [Near, levelBefore] at this ih
    simp only [Near]
    have e1 : (sumL [t + 1] fun t' => val c.eff k t' * D.fin g d i t' - D.fout g d i t') =
        val c.eff k (t + 1) * D.fin g d i (t + 1) - D.fout g d i (t + 1) := by simp [sumL]
    rw [e1]
    push_cast
    exact ⟨by linarith [this.1, ih.1], by linarith [this.2, ih.2]⟩

/-! ### Costs -/

theorem low_near {c x u : ℚ} (hx : NearLimits e x u) : -(max 0 (-c) * u) ≤ c * x + e * |c| := by
  obtain ⟨h1, h2⟩ := hx
  rcases le_total 0 c with h | h
  · rw [max_eq_left (by linarith), abs_of_nonneg h]
    nlinarith
  · rw [max_eq_right (by linarith), abs_of_nonpos h]
    nlinarith

theorem pay_near {p x y : ℚ} (h : Near e x y) : -(e * |p|) ≤ p * (x - y) := by
  obtain ⟨h1, h2⟩ := h
  rcases le_total 0 p with hp | hp
  · rw [abs_of_nonneg hp]
    nlinarith
  · rw [abs_of_nonpos hp]
    nlinarith

theorem Spec.Near.symm {x y : ℚ} (h : Near e x y) : Near e y x := ⟨h.2, h.1⟩

variable (s k P)

/-- what errors on flows are worth at a node -/
def nodeSlackVars (t : ℕ) (g d : String) (n : InputNode) : ℚ :=
  sumI n.consumptions (fun c _ => |val c.cost k t - P.node g d t|) +
  sumI n.productions (fun c _ => |val c.cost k t - P.node g d t|) +
  sumI n.links (fun c _ => |val c.cost k t + P.node g d t - P.node g c.dest t|) +
  sumI n.storages (fun c i => |val c.cost k t + P.stored g d i t - P.storedNext s.horizon g d i t|) +
  sumI n.storages (fun c i => |P.node g d t - val c.eff k t * P.stored g d i t|) +
  sumI n.storages (fun _ i => |P.stored g d i t - P.node g d t|)

def convSlackVars (t : ℕ) (p : String × Converter) : ℚ :=
  |fval p.2.cost k t + (sumL p.2.srcRatios fun q => P.used p.1 (srcPair q.1) t) - P.node p.2.destNetwork p.2.destNode t| +
  sumL p.2.srcRatios fun q => |P.node (srcPair q.1).1 (srcPair q.1).2 t - val q.2 k t * P.used p.1 (srcPair q.1) t|

def slackVars : ℚ := sumL (List.range s.horizon) fun t =>
  sumN s (nodeSlackVars s k P t) + sumL s.converters (convSlackVars k P t)

def nodeSlackRows (t : ℕ) (g d : String) (n : InputNode) : ℚ := |P.node g d t| + sumI n.storages fun _ i => |P.stored g d i t|

def convSlackRows (t : ℕ) (p : String × Converter) : ℚ := sumL p.2.srcRatios fun q => |P.used p.1 (srcPair q.1) t|

def slackRows : ℚ := sumL (List.range s.horizon) fun t =>
  sumN s (nodeSlackRows P t) + sumL s.converters (convSlackRows P t)

variable {s k P}

theorem slack_eq : slackWorth s k P = slackVars s k P + slackRows s P := by
  unfold slackWorth slackVars slackRows
  rw [← sumL_add]
  apply sumL_congr
  intro t _
  have h1 : (sumL s.networks fun p => sumL p.2.nodes fun q => nodeSlack s k P t p.1 q.1 q.2) =
      sumN s (nodeSlackVars s k P t) + sumN s (nodeSlackRows P t) := by
    rw [← sumN_add]
    apply sumN_congr
    intro g d n _
    unfold nodeSlack nodeSlackVars nodeSlackRows
    simp only [sumI_add]
    ring
  have h2 : sumL s.converters (convSlack k P t) = sumL s.converters (convSlackVars k P t) + sumL s.converters (convSlackRows P t) := by
    rw [← sumL_add]
    apply sumL_congr
    intro p _
    unfold convSlack convSlackVars convSlackRows
    rw [sumL_add]
    ring
  rw [h1, h2]
  ring

theorem sumN_mul (s : Study) (c : ℚ) (f : String → String → InputNode → ℚ) : (sumN s fun g d n => c * f g d n) = c * sumN s f := by
  unfold sumN
  simp only [sumL_mul]

theorem sumN_le {f f' : String → String → InputNode → ℚ} (h : ∀ g d n, HasNode s g d n → f g d n ≤ f' g d n) : sumN s f ≤ sumN s f' :=
  sumL_le fun p hp => sumL_le fun q hq => h _ _ _ ⟨p.2, hp, hq⟩

theorem lows_near {D : Dispatch} (hi : StudyInv s) (hz : DrainsPriced s k P) (hb : NearBounds e s k D) :
    lows s k P ≤ reds s k P D + e * slackVars s k P := by
  unfold reds lows slackVars
  rw [← sumL_mul, ← sumL_add]
  apply sumL_le
  intro t ht
  have ht := List.mem_range.mp ht
  have h1 : sumN s (nodeLow s k P t) ≤ sumN s (nodeRed s k P D t) + e * sumN s (nodeSlackVars s k P t) := by
    rw [← sumN_mul, ← sumN_add]
    apply sumN_le
    intro g d n hn
    unfold nodeRed nodeLow nodeSlackVars
    have ec := sumI_le (l := n.consumptions) fun c i hc => low_near (c := val c.cost k t - P.node g d t) (hb.consumptions g d n hn i c hc t ht)
    have ep := sumI_le (l := n.productions) fun c i hc => low_near (c := val c.cost k t - P.node g d t) (hb.productions g d n hn i c hc t ht)
    have el := sumI_le (l := n.links) fun c i hc =>
      low_near (c := val c.cost k t + P.node g d t - P.node g c.dest t) (hb.links g d n hn i c hc t ht)
    have e1 := sumI_le (l := n.storages) fun c i hc =>
      low_near (c := val c.cost k t + P.stored g d i t - P.storedNext s.horizon g d i t) (hb.storages g d n hn i c hc t ht).1
    have e2 := sumI_le (l := n.storages) fun c i hc =>
      low_near (c := P.node g d t - val c.eff k t * P.stored g d i t) (hb.storages g d n hn i c hc t ht).2.1
    have e3 := sumI_le (l := n.storages) fun c i hc =>
      low_near (c := P.stored g d i t - P.node g d t) (hb.storages g d n hn i c hc t ht).2.2
    simp only [sumI_add, sumI_mul] at ec ep el e1 e2 e3
    linarith
  have h2 : sumL s.converters (convLow k P t) ≤ sumL s.converters (convRed k P D t) + e * sumL s.converters (convSlackVars k P t) := by
    rw [← sumL_mul, ← sumL_add]
    apply sumL_le
    intro p hp
    unfold convRed convLow convSlackVars
    have e1 := low_near (c := fval p.2.cost k t + (sumL p.2.srcRatios fun q => P.used p.1 (srcPair q.1) t) -
      P.node p.2.destNetwork p.2.destNode t) (hb.convDest p hp t ht)
    have e2 : (sumL p.2.srcRatios fun q =>
        -(max 0 (-(P.node (srcPair q.1).1 (srcPair q.1).2 t - val q.2 k t * P.used p.1 (srcPair q.1) t)) *
          (fval p.2.max k t / val q.2 k t))) ≤
        sumL p.2.srcRatios fun q => (P.node (srcPair q.1).1 (srcPair q.1).2 t - val q.2 k t * P.used p.1 (srcPair q.1) t) *
          D.convSrc p.1 (srcPair q.1) t + e * |P.node (srcPair q.1).1 (srcPair q.1).2 t - val q.2 k t * P.used p.1 (srcPair q.1) t| := by
      apply sumL_le
      intro q hq
      obtain ⟨g, d, n, e', hn⟩ := (hi.convs p hp).sources q.1 (List.mem_map.mpr ⟨q, hq, rfl⟩)
      have hq' : ([g, d], q.2) ∈ p.2.srcRatios := by rw [← e']; exact hq
      rw [e']
      have h2 := hb.convSrc p hp g d q.2 hq' t ht
      by_cases h0 : val q.2 k t = 0
      · have h3 := hz p hp g d q.2 hq' t ht h0
        simp only [srcPair, h0, zero_mul, sub_zero, div_zero, mul_zero, neg_zero]
        rw [abs_of_nonneg h3]
        nlinarith [h2.1]
      · exact low_near ⟨h2.1, h2.2 h0⟩
    rw [sumL_add, sumL_mul] at e2
    linarith
  linarith

theorem rows_near {D : Dispatch} (hi : StudyInv s) (hD : NearFeasible e s k D) :
    (sumL (List.range s.horizon) fun t => sumN s fun g d n => P.node g d t * sumI n.consumptions (fun c _ => val c.quantity k t) -
      sumI n.storages fun c i => P.stored g d i t * if t = 0 then c.initCapacity else 0) ≤
    rows s k P D + e * slackRows s P := by
  unfold rows slackRows
  rw [← sumL_mul, ← sumL_add]
  apply sumL_le
  intro t ht
  have ht := List.mem_range.mp ht
  have h1 : 0 ≤ sumL s.converters (convRows k P D t) + e * sumL s.converters (convSlackRows P t) := by
    rw [← sumL_mul, ← sumL_add]
    apply sumL_nonneg'
    intro p hp
    unfold convRows convSlackRows
    rw [← sumL_mul, ← sumL_add]
    apply sumL_nonneg'
    intro q hq
    obtain ⟨g, d, n, e', hn⟩ := (hi.convs p hp).sources q.1 (List.mem_map.mpr ⟨q, hq, rfl⟩)
    have := pay_near (p := P.used p.1 (g, d) t) (hD.ratios p hp g d q.2 (by rw [← e']; exact hq) t ht)
    rw [e']
    simp only [srcPair]
    rw [mul_comm (val q.2 k t)]
    linarith
  have h2 : (sumN s fun g d n => P.node g d t * sumI n.consumptions (fun c _ => val c.quantity k t) -
      sumI n.storages fun c i => P.stored g d i t * if t = 0 then c.initCapacity else 0) ≤
      sumN s (nodeRows s k P D t) + e * sumN s (nodeSlackRows P t) := by
    rw [← sumN_mul, ← sumN_add]
    apply sumN_le
    intro g d n hn
    unfold nodeRows nodeSlackRows
    have h3 := pay_near (p := P.node g d t) (hD.balanced g d n hn t ht)
    have h4 : (sumI n.storages fun c i => P.stored g d i t *
        (D.cap g d i t + D.fout g d i t - val c.eff k t * D.fin g d i t - capBefore D g d i t)) ≤
        sumI n.storages fun c i => (P.stored g d i t * if t = 0 then c.initCapacity else 0) + e * |P.stored g d i t| := by
      apply sumI_le
      intro c i hc
      have := pay_near (p := P.stored g d i t) (hD.storages g d n hn i c hc t ht).symm
      have e1 : D.cap g d i t + D.fout g d i t - val c.eff k t * D.fin g d i t - capBefore D g d i t =
          (if t = 0 then c.initCapacity else 0) - ((levelBefore D g d i c.initCapacity t + val c.eff k t * D.fin g d i t - D.fout g d i t) -
            D.cap g d i t) := by
        unfold capBefore
        rcases t with _ | t
        · simp [levelBefore]
          ring
        · simp [levelBefore]
          ring
      rw [e1, mul_sub]
      linarith
    rw [sumI_add, sumI_mul] at h4
    linarith
  linarith

theorem worth_near {D : Dispatch} (hi : StudyInv s)
    (hdest : ∀ p ∈ s.converters, ∃ n, HasNode s p.2.destNetwork p.2.destNode n) (hz : DrainsPriced s k P)
    (hD : NearFeasible e s k D) : worth s k P ≤ cost s k D + e * slackWorth s k P := by
  rw [cost_eq_rows_reds (P := P) hi hdest, worth_eq, slack_eq]
  have h1 := lows_near (P := P) hi hz hD.bounds
  have h2 := rows_near (P := P) hi hD
  linarith

end Hadar
