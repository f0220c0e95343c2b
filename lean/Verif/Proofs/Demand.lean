import Verif.Spec.Demand
import Verif.Proofs.Worth
import Verif.Proofs.Cut

/-! # Helper lemmas on prices that are not negative -/

namespace Hadar

open Spec

variable {s s' : Study} {k k' : ℕ} {P : Prices} {D : Dispatch}

/-! ### A dispatch that costs what the study is worth is an equilibrium -/

theorem best_of_low {c x u : ℚ} (hx : 0 ≤ x ∧ x ≤ u) (h : c * x = -(max 0 (-c) * u)) : Best c x u := by
  constructor
  · intro hc
    rw [max_eq_left (by linarith)] at h
    have : c * x = 0 := by linarith
    rcases mul_eq_zero.mp this with h1 | h1
    · linarith
    · exact h1
  · intro hc
    rw [max_eq_right (by linarith)] at h
    have : c * (x - u) = 0 := by linarith
    rcases mul_eq_zero.mp this with h1 | h1
    · linarith
    · linarith

theorem sumL_tight {α : Type} {l : List α} {f g : α → ℚ} (h : ∀ a ∈ l, f a ≤ g a) (e : sumL l g ≤ sumL l f) : ∀ a ∈ l, f a = g a := by
  induction l with
  | nil => intro a ha; cases ha
  | cons b l ih =>
    have h1 : f b ≤ g b := h b (by simp)
    have h2 : sumL l f ≤ sumL l g := sumL_le fun a ha => h a (by simp [ha])
    have e1 : sumL (b :: l) g = g b + sumL l g := by simp [sumL]
    have e2 : sumL (b :: l) f = f b + sumL l f := by simp [sumL]
    rw [e1, e2] at e
    intro a ha
    rcases List.mem_cons.mp ha with rfl | ha
    · linarith
    · exact ih (fun a ha => h a (by simp [ha])) (by linarith) a ha

theorem sumI_tight {α : Type} {l : List α} {f g : α → ℕ → ℚ} (h : ∀ a i, l[i]? = some a → f a i ≤ g a i) (e : sumI l g ≤ sumI l f) :
    ∀ a i, l[i]? = some a → f a i = g a i := by
  rw [sumI_eq, sumI_eq] at e
  intro a i ha
  exact sumL_tight (l := l.zipIdx) (f := fun p => f p.1 p.2) (g := fun p => g p.1 p.2)
    (fun p hp => h p.1 p.2 (mem_zipIdx_iff.mp hp)) e (a, i) (mem_zipIdx_iff.mpr ha)

theorem equilibrium_of_worth (hi : StudyInv s) (hdest : ∀ p ∈ s.converters, ∃ n, HasNode s p.2.destNetwork p.2.destNode n)
    (hz : DrainsPriced s k P) (hD : Spec.Feasible s k D) (h : cost s k D ≤ worth s k P) : Equilibrium s k D P := by
  have hb := hD.bounds
  rw [cost_eq_rows_reds (P := P) hi hdest, rows_const hi hD, worth_eq] at h
  have h : reds s k P D ≤ lows s k P := by linarith
  have hN : ∀ t < s.horizon, ∀ g d n, HasNode s g d n →
      (∀ c i, n.consumptions[i]? = some c → -(max 0 (-(val c.cost k t - P.node g d t)) * val c.quantity k t) ≤
        (val c.cost k t - P.node g d t) * D.lol g d i t) ∧
      (∀ c i, n.productions[i]? = some c → -(max 0 (-(val c.cost k t - P.node g d t)) * val c.quantity k t) ≤
        (val c.cost k t - P.node g d t) * D.prod g d i t) ∧
      (∀ c i, n.links[i]? = some c → -(max 0 (-(val c.cost k t + P.node g d t - P.node g c.dest t)) * val c.quantity k t) ≤
        (val c.cost k t + P.node g d t - P.node g c.dest t) * D.link g d i t) ∧
      (∀ c i, n.storages[i]? = some c →
        -(max 0 (-(val c.cost k t + P.stored g d i t - P.storedNext s.horizon g d i t)) * val c.capacity k t) ≤
          (val c.cost k t + P.stored g d i t - P.storedNext s.horizon g d i t) * D.cap g d i t) ∧
      (∀ c i, n.storages[i]? = some c → -(max 0 (-(P.node g d t - val c.eff k t * P.stored g d i t)) * val c.flowIn k t) ≤
        (P.node g d t - val c.eff k t * P.stored g d i t) * D.fin g d i t) ∧
      ∀ c i, n.storages[i]? = some c → -(max 0 (-(P.stored g d i t - P.node g d t)) * val c.flowOut k t) ≤
        (P.stored g d i t - P.node g d t) * D.fout g d i t := fun t ht g d n hn =>
    ⟨fun c i hc => low_le (hb.consumptions g d n hn i c hc t ht), fun c i hc => low_le (hb.productions g d n hn i c hc t ht),
      fun c i hc => low_le (hb.links g d n hn i c hc t ht), fun c i hc => low_le (hb.storages g d n hn i c hc t ht).1,
      fun c i hc => low_le (hb.storages g d n hn i c hc t ht).2.1, fun c i hc => low_le (hb.storages g d n hn i c hc t ht).2.2⟩
  have hN' : ∀ t < s.horizon, ∀ g d n, HasNode s g d n → nodeLow s k P t g d n ≤ nodeRed s k P D t g d n := by
    intro t ht g d n hn
    obtain ⟨a1, a2, a3, a4, a5, a6⟩ := hN t ht g d n hn
    unfold nodeRed nodeLow
    exact add_le_add (add_le_add (add_le_add (add_le_add (add_le_add (sumI_le a1) (sumI_le a2)) (sumI_le a3)) (sumI_le a4)) (sumI_le a5))
      (sumI_le a6)
  have hS : ∀ t < s.horizon, ∀ p ∈ s.converters, ∀ q ∈ p.2.srcRatios,
      -(max 0 (-(P.node (srcPair q.1).1 (srcPair q.1).2 t - val q.2 k t * P.used p.1 (srcPair q.1) t)) *
        (fval p.2.max k t / val q.2 k t)) ≤
      (P.node (srcPair q.1).1 (srcPair q.1).2 t - val q.2 k t * P.used p.1 (srcPair q.1) t) * D.convSrc p.1 (srcPair q.1) t := by
    intro t ht p hp q hq
    obtain ⟨g, d, n, e, hn⟩ := (hi.convs p hp).sources q.1 (List.mem_map.mpr ⟨q, hq, rfl⟩)
    have hq' : ([g, d], q.2) ∈ p.2.srcRatios := by rw [← e]; exact hq
    rw [e]
    have h2 := hb.convSrc p hp g d q.2 hq' t ht
    by_cases h0 : val q.2 k t = 0
    · simp only [srcPair, h0, zero_mul, sub_zero, div_zero, mul_zero, neg_zero]
      exact mul_nonneg (hz p hp g d q.2 hq' t ht h0) h2.1
    · exact low_le ⟨h2.1, h2.2 h0⟩
  have hC' : ∀ t < s.horizon, ∀ p ∈ s.converters, convLow k P t p ≤ convRed k P D t p := by
    intro t ht p hp
    unfold convRed convLow
    exact add_le_add (low_le (hb.convDest p hp t ht)) (sumL_le (hS t ht p hp))
  have hT : ∀ t < s.horizon, sumN s (nodeRed s k P D t) + sumL s.converters (convRed k P D t) ≤
      sumN s (nodeLow s k P t) + sumL s.converters (convLow k P t) := by
    intro t ht
    have := sumL_tight (l := List.range s.horizon) (f := fun t => sumN s (nodeLow s k P t) + sumL s.converters (convLow k P t))
      (g := fun t => sumN s (nodeRed s k P D t) + sumL s.converters (convRed k P D t))
      (fun t ht => add_le_add (sumN_le (hN' t (List.mem_range.mp ht))) (sumL_le (hC' t (List.mem_range.mp ht)))) h t (List.mem_range.mpr ht)
    exact this.symm.le
  have hNe : ∀ t < s.horizon, ∀ g d n, HasNode s g d n → nodeRed s k P D t g d n ≤ nodeLow s k P t g d n := by
    rintro t ht g d n ⟨net, hg, hd⟩
    have h1 : sumN s (nodeRed s k P D t) ≤ sumN s (nodeLow s k P t) := by
      have := hT t ht
      have := sumL_le (hC' t ht)
      linarith
    have h2 := sumL_tight (l := s.networks) (f := fun p => sumL p.2.nodes fun q => nodeLow s k P t p.1 q.1 q.2)
      (g := fun p => sumL p.2.nodes fun q => nodeRed s k P D t p.1 q.1 q.2)
      (fun p hp => sumL_le fun q hq => hN' t ht _ _ _ ⟨p.2, hp, hq⟩) h1 (g, net) hg
    have h3 := sumL_tight (l := net.nodes) (f := fun q => nodeLow s k P t g q.1 q.2) (g := fun q => nodeRed s k P D t g q.1 q.2)
      (fun q hq => hN' t ht _ _ _ ⟨net, hg, hq⟩) h2.symm.le (d, n) hd
    exact h3.symm.le
  have hCe : ∀ t < s.horizon, ∀ p ∈ s.converters, convLow k P t p = convRed k P D t p := by
    intro t ht
    refine sumL_tight (hC' t ht) ?_
    have := hT t ht
    have := sumN_le (hN' t ht)
    linarith
  have hA : ∀ t < s.horizon, ∀ g d n, HasNode s g d n →
      sumI n.consumptions (fun c i => (val c.cost k t - P.node g d t) * D.lol g d i t) ≤
        sumI n.consumptions (fun c _ => -(max 0 (-(val c.cost k t - P.node g d t)) * val c.quantity k t)) ∧
      sumI n.productions (fun c i => (val c.cost k t - P.node g d t) * D.prod g d i t) ≤
        sumI n.productions (fun c _ => -(max 0 (-(val c.cost k t - P.node g d t)) * val c.quantity k t)) ∧
      sumI n.links (fun c i => (val c.cost k t + P.node g d t - P.node g c.dest t) * D.link g d i t) ≤
        sumI n.links (fun c _ => -(max 0 (-(val c.cost k t + P.node g d t - P.node g c.dest t)) * val c.quantity k t)) ∧
      sumI n.storages (fun c i => (val c.cost k t + P.stored g d i t - P.storedNext s.horizon g d i t) * D.cap g d i t) ≤
        sumI n.storages (fun c i =>
          -(max 0 (-(val c.cost k t + P.stored g d i t - P.storedNext s.horizon g d i t)) * val c.capacity k t)) ∧
      sumI n.storages (fun c i => (P.node g d t - val c.eff k t * P.stored g d i t) * D.fin g d i t) ≤
        sumI n.storages (fun c i => -(max 0 (-(P.node g d t - val c.eff k t * P.stored g d i t)) * val c.flowIn k t)) ∧
      sumI n.storages (fun c i => (P.stored g d i t - P.node g d t) * D.fout g d i t) ≤
        sumI n.storages (fun c i => -(max 0 (-(P.stored g d i t - P.node g d t)) * val c.flowOut k t)) := by
    intro t ht g d n hn
    obtain ⟨a1, a2, a3, a4, a5, a6⟩ := hN t ht g d n hn
    have h1 := hNe t ht g d n hn
    unfold nodeRed nodeLow at h1
    have b1 := sumI_le a1
    have b2 := sumI_le a2
    have b3 := sumI_le a3
    have b4 := sumI_le a4
    have b5 := sumI_le a5
    have b6 := sumI_le a6
    refine ⟨?_, ?_, ?_, ?_, ?_, ?_⟩ <;> linarith
  refine ⟨?_, ?_, ?_, ?_, ?_, ?_, ?_, ?_⟩
  · intro g d n hn i c hc t ht
    exact best_of_low (hb.consumptions g d n hn i c hc t ht)
      (sumI_tight (hN t ht g d n hn).1 (hA t ht g d n hn).1 c i hc).symm
  · intro g d n hn i c hc t ht
    exact best_of_low (hb.productions g d n hn i c hc t ht)
      (sumI_tight (hN t ht g d n hn).2.1 (hA t ht g d n hn).2.1 c i hc).symm
  · intro g d n hn i c hc t ht
    exact best_of_low (hb.links g d n hn i c hc t ht)
      (sumI_tight (hN t ht g d n hn).2.2.1 (hA t ht g d n hn).2.2.1 c i hc).symm
  · intro g d n hn i c hc t ht
    exact best_of_low (hb.storages g d n hn i c hc t ht).1
      (sumI_tight (hN t ht g d n hn).2.2.2.1 (hA t ht g d n hn).2.2.2.1 c i hc).symm
  · intro g d n hn i c hc t ht
    exact best_of_low (hb.storages g d n hn i c hc t ht).2.1
      (sumI_tight (hN t ht g d n hn).2.2.2.2.1 (hA t ht g d n hn).2.2.2.2.1 c i hc).symm
  · intro g d n hn i c hc t ht
    exact best_of_low (hb.storages g d n hn i c hc t ht).2.2
      (sumI_tight (hN t ht g d n hn).2.2.2.2.2 (hA t ht g d n hn).2.2.2.2.2 c i hc).symm
  · intro p hp g d r hr t ht
    have h1 := hCe t ht p hp
    unfold convLow convRed at h1
    have h2 := low_le (c := fval p.2.cost k t + (sumL p.2.srcRatios fun q => P.used p.1 (srcPair q.1) t) -
      P.node p.2.destNetwork p.2.destNode t) (hb.convDest p hp t ht)
    have h3 := sumL_tight (hS t ht p hp) (by linarith) ([g, d], r) hr
    simp only [srcPair] at h3
    have h4 := hb.convSrc p hp g d r hr t ht
    refine ⟨fun h0 => best_of_low ⟨h4.1, h4.2 h0⟩ h3.symm, fun h0 => ⟨hz p hp g d r hr t ht h0, fun hpos => ?_⟩⟩
    simp only [h0, zero_mul, sub_zero, div_zero, mul_zero, neg_zero] at h3
    rcases mul_eq_zero.mp h3.symm with h5 | h5
    · linarith
    · exact h5
  · intro p hp t ht
    have h1 := hCe t ht p hp
    unfold convLow convRed at h1
    have h2 := sumL_le (hS t ht p hp)
    have h3 := low_le (c := fval p.2.cost k t + (sumL p.2.srcRatios fun q => P.used p.1 (srcPair q.1) t) -
      P.node p.2.destNetwork p.2.destNode t) (hb.convDest p hp t ht)
    exact best_of_low (hb.convDest p hp t ht) (by linarith)

/-! ### Prices without their negative parts -/

def Spec.Prices.pos (P : Prices) : Prices where
  node g d t := max 0 (P.node g d t)
  stored g d i t := max 0 (P.stored g d i t)
  used c x t := max 0 (P.used c x t)

theorem Spec.Prices.pos_nonneg (P : Prices) : P.pos.Nonneg :=
  ⟨fun _ _ _ => le_max_left _ _, fun _ _ _ _ => le_max_left _ _, fun _ _ _ => le_max_left _ _⟩

theorem Spec.Prices.pos_next (P : Prices) (h : ℕ) (g d : String) (i t : ℕ) :
    P.pos.storedNext h g d i t = max 0 (P.storedNext h g d i t) := by
  unfold Prices.storedNext
  split_ifs
  · rfl
  · simp

/-- what goes from `x` to `y` earns no more without negative prices -/
theorem earn_pos {x y c : ℚ} (hc : 0 ≤ c) : max 0 (max 0 y - max 0 x - c) ≤ max 0 (y - x - c) := by
  rcases le_total y 0 with hy | hy
  · rw [max_eq_left hy]
    have := le_max_left 0 x
    rw [max_eq_left (by linarith : 0 - max 0 x - c ≤ 0)]
    exact le_max_left _ _
  · rw [max_eq_right hy]
    have := le_max_right 0 x
    exact max_le_max_left 0 (by linarith)

theorem earn_scaled {x y e : ℚ} (he : 0 ≤ e) : max 0 (e * max 0 y - max 0 x) ≤ max 0 (e * y - x) := by
  have : e * max 0 y = max 0 (e * y) := by rw [mul_max_of_nonneg _ _ he, mul_zero]
  rw [this]
  have := earn_pos (x := x) (y := e * y) (c := 0) le_rfl
  simpa using this

/-- the negative part -/
def negPart (x : ℚ) : ℚ := max 0 x - x

theorem held_pos {v w c cap init : ℚ} (hcap : 0 ≤ cap) (hc : 0 ≤ c) (h : init = 0 ∨ 0 ≤ init ∧ c = 0 ∧ init ≤ cap) :
    init * (negPart v - negPart w) + max 0 (max 0 w - max 0 v - c) * cap ≤ max 0 (w - v - c) * cap := by
  rcases h with rfl | ⟨hi, rfl, hle⟩
  · rw [zero_mul, zero_add]
    exact mul_le_mul_of_nonneg_right (earn_pos hc) hcap
  · unfold negPart
    simp only [sub_zero]
    rcases le_total 0 v with hv | hv <;> rcases le_total 0 w with hw | hw
    · rw [max_eq_right hv, max_eq_right hw]; linarith
    · rw [max_eq_right hv, max_eq_left hw, max_eq_left (by linarith : 0 - v ≤ 0), max_eq_left (by linarith : w - v ≤ 0)]
      nlinarith
    · rw [max_eq_left hv, max_eq_right hw, max_eq_right (by linarith : 0 ≤ w - 0), max_eq_right (by linarith : 0 ≤ w - v)]
      nlinarith
    · rw [max_eq_left hv, max_eq_left hw]
      simp only [sub_self, zero_sub, max_self, zero_mul, add_zero]
      rcases le_total 0 (w - v) with h1 | h1
      · rw [max_eq_right h1]; nlinarith
      · rw [max_eq_left h1]; nlinarith

theorem telescope (h : ℕ) (u : ℕ → ℚ) (hu : u h = 0) : (sumL (List.range h) fun t => u t - u (t + 1)) = if h = 0 then 0 else u 0 := by
  have : ∀ n, (sumL (List.range n) fun t => u t - u (t + 1)) = u 0 - u n := by
    intro n
    induction n with
    | zero => simp [sumL]
    | succ n ih =>
      rw [List.range_succ, sumL_append, ih]
      simp [sumL]
  rw [this, hu, sub_zero]
  split_ifs with h0
  · rw [← hu, h0]
  · rfl

/-- leaving out the negative parts of prices, a study is worth at least as much -/
theorem worth_pos (hc : CostsNonneg s k) (hr : RatiosNonneg s k) (hst : StoragesAtRest s k) (hb : Bounds s k D) :
    worth s k P ≤ worth s k P.pos := by
  have hq : ∀ {x q : ℚ}, 0 ≤ x ∧ x ≤ q → 0 ≤ q := fun h => h.1.trans h.2
  rw [worth_loads, worth_loads]
  have e1 : loadWorth s k P ≤ loadWorth s k P.pos := by
    unfold loadWorth
    refine sumL_le fun t ht => sumL_le fun p hp => sumL_le fun q hq' => sumI_le fun c i hci => ?_
    exact mul_le_mul_of_nonneg_right (min_le_min_right _ (le_max_right _ _))
      (hq (hb.consumptions p.1 q.1 q.2 ⟨p.2, hp, hq'⟩ i c hci t (List.mem_range.mp ht)))
  have e2 : ∀ t < s.horizon, sumL s.converters (convWorth k P.pos t) ≤ sumL s.converters (convWorth k P t) := by
    intro t ht
    refine sumL_le fun p hp => ?_
    unfold convWorth
    refine add_le_add ?_ (sumL_le fun q hq' => ?_)
    · refine mul_le_mul_of_nonneg_right ?_ (hq (hb.convDest p hp t ht))
      have h1 : (max 0 (sumL p.2.srcRatios fun q => P.used p.1 (srcPair q.1) t)) ≤
          sumL p.2.srcRatios fun q => P.pos.used p.1 (srcPair q.1) t :=
        max_le (sumL_nonneg_of _ _ fun q _ => le_max_left _ _) (sumL_le fun q _ => le_max_right _ _)
      refine le_trans (max_le_max_left 0 ?_) (earn_pos (hc.converters p hp t ht))
      show max 0 (P.node p.2.destNetwork p.2.destNode t) - _ - _ ≤ _
      linarith
    · have h0 := hr p hp q hq' t ht
      exact mul_le_mul_of_nonneg_right (earn_scaled h0) (div_nonneg (hq (hb.convDest p hp t ht)) h0)
  have e3 : ∀ t < s.horizon, sumN s (restWorth s k P.pos t) + sumN s (fun g d n => sumI n.storages fun c i =>
      c.initCapacity * (negPart (P.stored g d i t) - negPart (P.storedNext s.horizon g d i t))) ≤ sumN s (restWorth s k P t) := by
    intro t ht
    rw [← sumN_add]
    refine sumN_le fun g d n hn => ?_
    unfold restWorth
    have h1 : sumI n.productions (fun c _ => max 0 (P.pos.node g d t - val c.cost k t) * val c.quantity k t) ≤
        sumI n.productions (fun c _ => max 0 (P.node g d t - val c.cost k t) * val c.quantity k t) := by
      refine sumI_le fun c i hci => mul_le_mul_of_nonneg_right ?_ (hq (hb.productions g d n hn i c hci t ht))
      have := earn_pos (x := 0) (y := P.node g d t) (hc.productions g d n hn c (List.mem_of_getElem? hci) t ht)
      rwa [max_self, sub_zero, sub_zero] at this
    have h2 : sumI n.links (fun c _ => max 0 (P.pos.node g c.dest t - P.pos.node g d t - val c.cost k t) * val c.quantity k t) ≤
        sumI n.links (fun c _ => max 0 (P.node g c.dest t - P.node g d t - val c.cost k t) * val c.quantity k t) :=
      sumI_le fun c i hci => mul_le_mul_of_nonneg_right (earn_pos (hc.links g d n hn c (List.mem_of_getElem? hci) t ht))
        (hq (hb.links g d n hn i c hci t ht))
    have h3 : sumI n.storages (fun c i =>
          max 0 (P.pos.storedNext s.horizon g d i t - P.pos.stored g d i t - val c.cost k t) * val c.capacity k t) +
        sumI n.storages (fun c i => c.initCapacity * (negPart (P.stored g d i t) - negPart (P.storedNext s.horizon g d i t))) ≤
        sumI n.storages (fun c i =>
          max 0 (P.storedNext s.horizon g d i t - P.stored g d i t - val c.cost k t) * val c.capacity k t) := by
      rw [← sumI_add]
      refine sumI_le fun c i hci => ?_
      have hm := List.mem_of_getElem? hci
      rw [Prices.pos_next, add_comm]
      refine held_pos (hq (hb.storages g d n hn i c hci t ht).1) (hc.storages g d n hn c hm t ht) ?_
      exact (hst g d n hn c hm).2.imp_right fun h => ⟨h.1, h.2 t ht⟩
    have h4 : sumI n.storages (fun c i => max 0 (val c.eff k t * P.pos.stored g d i t - P.pos.node g d t) * val c.flowIn k t) ≤
        sumI n.storages (fun c i => max 0 (val c.eff k t * P.stored g d i t - P.node g d t) * val c.flowIn k t) :=
      sumI_le fun c i hci => mul_le_mul_of_nonneg_right (earn_scaled ((hst g d n hn c (List.mem_of_getElem? hci)).1 t ht))
        (hq (hb.storages g d n hn i c hci t ht).2.1)
    have h5 : sumI n.storages (fun c i => max 0 (P.pos.node g d t - P.pos.stored g d i t) * val c.flowOut k t) ≤
        sumI n.storages (fun c i => max 0 (P.node g d t - P.stored g d i t) * val c.flowOut k t) := by
      refine sumI_le fun c i hci => mul_le_mul_of_nonneg_right ?_ (hq (hb.storages g d n hn i c hci t ht).2.2)
      have := earn_pos (x := P.stored g d i t) (y := P.node g d t) (c := 0) le_rfl
      rwa [sub_zero, sub_zero] at this
    linarith
  have e4 : (sumL (List.range s.horizon) fun t => sumN s fun g d n => sumI n.storages fun c i =>
      c.initCapacity * (negPart (P.stored g d i t) - negPart (P.storedNext s.horizon g d i t))) =
      if s.horizon = 0 then 0 else sumN s fun g d n => sumI n.storages fun c i => c.initCapacity * negPart (P.stored g d i 0) := by
    rw [sumN_sumL_range]
    have : ∀ g d (n : InputNode), (sumL (List.range s.horizon) fun t => sumI n.storages fun c i =>
        c.initCapacity * (negPart (P.stored g d i t) - negPart (P.storedNext s.horizon g d i t))) =
        if s.horizon = 0 then 0 else sumI n.storages fun c i => c.initCapacity * negPart (P.stored g d i 0) := by
      intro g d n
      have hsw : (sumL (List.range s.horizon) fun t => sumI n.storages fun c i =>
          c.initCapacity * (negPart (P.stored g d i t) - negPart (P.storedNext s.horizon g d i t))) =
          sumI n.storages fun c i => sumL (List.range s.horizon) fun t =>
            c.initCapacity * (negPart (P.stored g d i t) - negPart (P.storedNext s.horizon g d i t)) := by
        simp only [sumI_eq]
        exact (sumL_swap _ _ _).symm
      rw [hsw]
      have hin : ∀ (c : Storage) (i : ℕ), (sumL (List.range s.horizon) fun t =>
          c.initCapacity * (negPart (P.stored g d i t) - negPart (P.storedNext s.horizon g d i t))) =
          if s.horizon = 0 then 0 else c.initCapacity * negPart (P.stored g d i 0) := by
        intro c i
        rw [sumL_mul]
        have := telescope s.horizon (fun t => if t < s.horizon then negPart (P.stored g d i t) else 0) (by simp)
        have e : (sumL (List.range s.horizon) fun t => negPart (P.stored g d i t) - negPart (P.storedNext s.horizon g d i t)) =
            sumL (List.range s.horizon) fun t => (if t < s.horizon then negPart (P.stored g d i t) else 0) -
              if t + 1 < s.horizon then negPart (P.stored g d i (t + 1)) else 0 := by
          refine sumL_congr fun t ht => ?_
          rw [if_pos (List.mem_range.mp ht)]
          unfold Prices.storedNext
          split_ifs
          · rfl
          · simp [negPart]
        rw [e, this]
        split_ifs with h0 h1
        · simp
        · rfl
        · exact absurd (Nat.pos_of_ne_zero h0) h1
      simp only [hin]
      split_ifs
      · exact sumI_zero _
      · rfl
    simp only [this]
    split_ifs
    · exact sumN_zero _
    · rfl
  have e5 : sumN s (firstWorth P.pos) = sumN s (firstWorth P) +
      sumN s fun g d n => sumI n.storages fun c i => c.initCapacity * negPart (P.stored g d i 0) := by
    rw [← sumN_add]
    refine sumN_congr fun g d n _ => ?_
    unfold firstWorth
    rw [← sumI_add]
    refine sumI_congr fun c i _ => ?_
    simp only [Prices.pos, negPart]
    ring
  have e6 : (sumL (List.range s.horizon) fun t => sumN s (restWorth s k P.pos t) + sumL s.converters (convWorth k P.pos t)) +
      (if s.horizon = 0 then 0 else sumN s fun g d n => sumI n.storages fun c i => c.initCapacity * negPart (P.stored g d i 0)) ≤
      sumL (List.range s.horizon) fun t => sumN s (restWorth s k P t) + sumL s.converters (convWorth k P t) := by
    rw [← e4, ← sumL_add]
    refine sumL_le fun t ht => ?_
    have ht := List.mem_range.mp ht
    linarith [e2 t ht, e3 t ht]
  split_ifs at e6 ⊢ with h0
  · linarith
  · rw [e5]
    linarith

/-! ### More loads -/

theorem Spec.MoreLoads.other (h : MoreLoads s k s' k') : OtherLoads s k s' k' :=
  ⟨h.horizon, h.networks.imp fun _ _ h => ⟨h.1, h.2.imp fun _ _ h => ⟨h.1, h.2.1.imp fun _ _ h => h.1, h.2.2⟩⟩, h.converters⟩

theorem sumL_rel_le' {α β : Type} {R : α → β → Prop} {l : List α} {l' : List β} (h : List.Forall₂ R l l') {f : α → ℚ}
    {g : β → ℚ} (hfg : ∀ a ∈ l, ∀ b ∈ l', R a b → f a ≤ g b) : sumL l f ≤ sumL l' g :=
  sumL_rel_le h.flip fun b hb a ha hab => hfg a ha b hb hab

theorem sumI_rel_le' {α β : Type} {R : α → β → Prop} {l : List α} {l' : List β} (h : List.Forall₂ R l l') {f : α → ℕ → ℚ}
    {g : β → ℕ → ℚ} (hfg : ∀ i a b, l[i]? = some a → l'[i]? = some b → R a b → f a i ≤ g b i) : sumI l f ≤ sumI l' g :=
  sumI_rel_le h.flip fun i b a hb ha hab => hfg i a b ha hb hab

/-- at prices that are not negative more loads pay more -/
theorem loadWorth_more (h : MoreLoads s k s' k') (hP : P.Nonneg) (hc : CostsNonneg s k) :
    loadWorth s k P ≤ loadWorth s' k' P := by
  unfold loadWorth
  rw [← h.horizon]
  refine sumL_le fun t ht => ?_
  have ht := List.mem_range.mp ht
  refine sumL_rel_le' h.networks ?_
  rintro ⟨g, net⟩ hg ⟨g', net'⟩ - ⟨e, hnet⟩
  dsimp only at e hnet ⊢
  subst e
  refine sumL_rel_le' hnet ?_
  rintro ⟨d, n⟩ hd ⟨d', n'⟩ - ⟨e, hN, -⟩
  dsimp only at e hN ⊢
  subst e
  refine sumI_rel_le' hN fun i a b ha _ hab => ?_
  rw [← hab.1 t ht]
  exact mul_le_mul_of_nonneg_left (hab.2 t ht)
    (le_min (hP.node _ _ _) (hc.consumptions g d n ⟨net, hg, hd⟩ a (List.mem_of_getElem? ha) t ht))

theorem asked_eq (hi : StudyInv s) {g d : String} {n : InputNode} (hn : HasNode s g d n) {i : ℕ} {c : Consumption}
    (hc : n.consumptions[i]? = some c) (t : ℕ) : asked s k g d i t = val c.quantity k t := by
  unfold asked
  rw [inNode_eq hi hn, hc]

section losing

variable (h : MoreLoads s k s' k') (hi : StudyInv s) (hi' : StudyInv s')
include h

theorem more_imports (D : Dispatch) (g d : String) (t : ℕ) : imports s' D g d t = imports s D g d t := by
  have := imports_alike (D := D) (b := 1) h (fun _ _ n n' h => h.2.links.imp fun _ _ h => h.1) g d t
  rw [Dispatch.scale_one, one_mul] at this
  exact this

theorem more_from (D : Dispatch) (g d : String) (t : ℕ) : fromConverters s' D g d t = fromConverters s D g d t := by
  have := fromConverters_alike (D := D) (b := 1) h (fun _ c c' h => ⟨h.destNetwork, h.destNode⟩) g d t
  rw [Dispatch.scale_one, one_mul] at this
  exact this

theorem more_to (D : Dispatch) (g d : String) (t : ℕ) : toConverters s' D g d t = toConverters s D g d t := by
  have := toConverters_alike (D := D) (b := 1) h (fun _ c c' h => h.sources.imp fun _ _ h => h.1) g d t
  rw [Dispatch.scale_one, one_mul] at this
  exact this

include hi hi'

theorem losing_code (hD : CodeFeasible s k D) : CodeFeasible s' k' (D.losing s k s' k') := by
  have h0 := h.horizon
  have hb := hD.bounds
  refine ⟨⟨?_, ?_, ?_, ?_, ?_, ?_⟩, ?_, ?_, ?_⟩
  · intro g d n' hn' i b hb' t ht
    obtain ⟨n, hn, hN⟩ := Alike.node h hn'
    obtain ⟨a, ha, hab⟩ := forall₂_get_right hN.1 hb'
    rw [← h0] at ht
    have h1 := hb.consumptions g d n hn i a ha t ht
    have h2 := hab.2 t ht
    show 0 ≤ D.lol g d i t + (asked s' k' g d i t - asked s k g d i t) ∧
      D.lol g d i t + (asked s' k' g d i t - asked s k g d i t) ≤ val b.quantity k' t
    rw [asked_eq hi hn ha, asked_eq hi' hn' hb']
    exact ⟨by linarith [h1.1], by linarith [h1.2]⟩
  · intro g d n' hn' i b hb' t ht
    obtain ⟨n, hn, hN⟩ := Alike.node h hn'
    obtain ⟨a, ha, hab⟩ := forall₂_get_right hN.2.productions hb'
    rw [← h0] at ht
    rw [← hab.2 t ht]
    exact hb.productions g d n hn i a ha t ht
  · intro g d n' hn' i b hb' t ht
    obtain ⟨n, hn, hN⟩ := Alike.node h hn'
    obtain ⟨a, ha, hab⟩ := forall₂_get_right hN.2.storages hb'
    rw [← h0] at ht
    rw [← hab.1 t ht, ← hab.2.1 t ht, ← hab.2.2.1 t ht]
    exact hb.storages g d n hn i a ha t ht
  · intro g d n' hn' i b hb' t ht
    obtain ⟨n, hn, hN⟩ := Alike.node h hn'
    obtain ⟨a, ha, hab⟩ := forall₂_get_right hN.2.links hb'
    rw [← h0] at ht
    rw [← hab.2.2 t ht]
    exact hb.links g d n hn i a ha t ht
  · intro p' hp' g d r' hr' t ht
    obtain ⟨p, hp, e, hC⟩ := Alike.conv h hp'
    obtain ⟨⟨key, r⟩, hq, e', hs⟩ := forall₂_mem_right hC.sources hr'
    dsimp only at e' hs
    subst e'
    rw [← h0] at ht
    rw [← e, ← hs t ht, ← hC.max t ht]
    exact hb.convSrc p hp g d r hq t ht
  · intro p' hp' t ht
    obtain ⟨p, hp, e, hC⟩ := Alike.conv h hp'
    rw [← h0] at ht
    rw [← e, ← hC.max t ht]
    exact hb.convDest p hp t ht
  · intro g d n' hn' t ht
    obtain ⟨n, hn, hN⟩ := Alike.node h hn'
    rw [← h0] at ht
    have e1 : incoming s' (D.losing s k s' k') g d n' t = incoming s D g d n t := by
      show incoming s' D g d n' t = _
      unfold incoming
      rw [more_imports h, more_from h, sumI_rel hN.2.productions (g := fun _ i => D.prod g d i t) (fun _ _ _ _ _ _ => rfl),
        sumI_rel hN.2.storages (g := fun _ i => D.fout g d i t) (fun _ _ _ _ _ _ => rfl)]
    have e2 : selfFlow (D.losing s k s' k') g d n' t = selfFlow D g d n t := by
      show selfFlow D g d n' t = _
      unfold selfFlow
      symm
      apply sumI_rel hN.2.links
      rintro i l l' - - ⟨e, -⟩
      rw [e]
    have e3 : outgoing s' k' (D.losing s k s' k') g d n' t = outgoing s k D g d n t := by
      unfold outgoing
      have c1 : sumI n'.consumptions (fun c i => val c.quantity k' t - (D.losing s k s' k').lol g d i t) =
          sumI n.consumptions (fun c i => val c.quantity k t - D.lol g d i t) := by
        symm
        apply sumI_rel hN.1
        intro i a b ha hb' _
        show _ = val b.quantity k' t - (D.lol g d i t + (asked s' k' g d i t - asked s k g d i t))
        rw [asked_eq hi hn ha, asked_eq hi' hn' hb']
        ring
      have c2 : sumI n'.storages (fun _ i => (D.losing s k s' k').fin g d i t) = sumI n.storages (fun _ i => D.fin g d i t) :=
        (sumI_rel hN.2.storages (f := fun _ i => D.fin g d i t) (g := fun _ i => D.fin g d i t) fun _ _ _ _ _ _ => rfl).symm
      have c3 : sumI n'.links (fun _ i => (D.losing s k s' k').link g d i t) = sumI n.links (fun _ i => D.link g d i t) :=
        (sumI_rel hN.2.links (f := fun _ i => D.link g d i t) (g := fun _ i => D.link g d i t) fun _ _ _ _ _ _ => rfl).symm
      have c4 : toConverters s' (D.losing s k s' k') g d t = toConverters s D g d t := more_to h D g d t
      rw [c1, c2, c3, c4]
    rw [e1, e2, e3]
    exact hD.balance g d n hn t ht
  · intro g d n' hn' b hb' t ht
    obtain ⟨n, hn, hN⟩ := Alike.node h hn'
    rw [← h0] at ht
    rw [List.head?_eq_getElem?] at hb'
    obtain ⟨a, ha, hab⟩ := forall₂_get_right hN.2.storages hb'
    have := hD.storages g d n hn a (by rw [List.head?_eq_getElem?]; exact ha) t ht
    unfold Evolves at this ⊢
    rw [← hab.2.2.2.2.1, ← hab.2.2.2.2.2 t ht]
    exact this
  · intro p' hp' g d r' hr' t ht
    obtain ⟨p, hp, e, hC⟩ := Alike.conv h hp'
    obtain ⟨⟨key, r⟩, hq, e', hs⟩ := forall₂_mem_right hC.sources hr'
    dsimp only at e' hs
    subst e'
    rw [← h0] at ht
    rw [← e, ← hs t ht]
    exact hD.ratios p hp g d r hq t ht

theorem losing_cost (D : Dispatch) : cost s' k' (D.losing s k s' k') = cost s k D + (askedCost s' k' - askedCost s k) := by
  have h0 := h.horizon
  unfold cost askedCost
  rw [← h0, ← sumL_sub, ← sumL_add]
  refine sumL_congr fun t ht => ?_
  have ht := List.mem_range.mp ht
  have e1 : (sumL s'.converters fun p => fval p.2.cost k' t * (D.losing s k s' k').convDest p.1 t) =
      sumL s.converters fun p => fval p.2.cost k t * D.convDest p.1 t := by
    symm
    apply sumL_rel h.converters
    rintro ⟨x, c⟩ _ ⟨x', c'⟩ _ ⟨e, hc⟩
    cases e
    show fval c.cost k t * _ = fval c'.cost k' t * _
    rw [hc.cost t ht]
    rfl
  have e2 : sumN s' (fun g d n => nodeCost k' (D.losing s k s' k') g d n t) =
      sumN s fun g d n => nodeCost k D g d n t + sumI n.consumptions fun c i =>
        val c.cost k t * (asked s' k' g d i t - asked s k g d i t) := by
    symm
    apply sumN_alike h
    rintro g d n n' hN
    unfold nodeCost
    have c1 : sumI n'.consumptions (fun c i => val c.cost k' t * (D.losing s k s' k').lol g d i t) =
        sumI n.consumptions (fun c i => val c.cost k t * D.lol g d i t) +
          sumI n.consumptions (fun c i => val c.cost k t * (asked s' k' g d i t - asked s k g d i t)) := by
      rw [← sumI_add]
      symm
      apply sumI_rel hN.1
      intro i a b ha hb' hab
      rw [hab.1 t ht]
      show _ = val b.cost k' t * (D.lol g d i t + (asked s' k' g d i t - asked s k g d i t))
      ring
    have c2 : sumI n'.productions (fun c i => val c.cost k' t * (D.losing s k s' k').prod g d i t) =
        sumI n.productions (fun c i => val c.cost k t * D.prod g d i t) :=
      (sumI_rel hN.2.productions fun i a b _ _ hab => by rw [hab.1 t ht]; rfl).symm
    have c3 : sumI n'.storages (fun c i => val c.cost k' t * (D.losing s k s' k').cap g d i t) =
        sumI n.storages (fun c i => val c.cost k t * D.cap g d i t) :=
      (sumI_rel hN.2.storages fun i a b _ _ hab => by rw [hab.2.2.2.1 t ht]; rfl).symm
    have c4 : sumI n'.links (fun c i => val c.cost k' t * (D.losing s k s' k').link g d i t) =
        sumI n.links (fun c i => val c.cost k t * D.link g d i t) :=
      (sumI_rel hN.2.links fun i a b _ _ hab => by rw [hab.2.1 t ht]; rfl).symm
    rw [c1, c2, c3, c4]
    ring
  have e3 : sumN s' (fun g d n => sumI n.consumptions fun c _ => val c.cost k' t * val c.quantity k' t) =
      sumN s fun g d n => (sumI n.consumptions fun c i => val c.cost k t * (asked s' k' g d i t - asked s k g d i t)) +
        sumI n.consumptions fun c _ => val c.cost k t * val c.quantity k t := by
    symm
    unfold sumN
    apply sumL_rel h.networks
    rintro ⟨g, net⟩ hg ⟨g', net'⟩ hg' ⟨e, hnet⟩
    dsimp only at e hnet ⊢
    subst e
    apply sumL_rel hnet
    rintro ⟨d, n⟩ hd ⟨d', n'⟩ hd' ⟨e, hN⟩
    dsimp only at e hN ⊢
    subst e
    rw [← sumI_add]
    apply sumI_rel hN.1
    intro i a b ha hb' hab
    rw [asked_eq hi ⟨net, hg, hd⟩ ha, asked_eq hi' ⟨net', hg', hd'⟩ hb', ← hab.1 t ht]
    ring
  show sumN s' (fun g d n => nodeCost k' (D.losing s k s' k') g d n t) + _ = _
  rw [e1, e2]
  have e4 : (sumL s'.networks fun p => sumL p.2.nodes fun q => sumI q.2.consumptions fun c _ => val c.cost k' t * val c.quantity k' t) =
      sumN s' (fun g d n => sumI n.consumptions fun c _ => val c.cost k' t * val c.quantity k' t) := rfl
  have e5 : (sumL s.networks fun p => sumL p.2.nodes fun q => sumI q.2.consumptions fun c _ => val c.cost k t * val c.quantity k t) =
      sumN s (fun g d n => sumI n.consumptions fun c _ => val c.cost k t * val c.quantity k t) := rfl
  have e6 : (sumL s.networks fun p => sumL p.2.nodes fun q => nodeCost k D p.1 q.1 q.2 t) = sumN s fun g d n => nodeCost k D g d n t := rfl
  rw [e4, e5, e6, e3, sumN_add, sumN_add]
  ring

end losing

end Hadar
