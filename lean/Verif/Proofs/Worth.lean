import Verif.Spec.Worth
import Verif.Proofs.Prices

/-!
# What a study is worth at given prices
-/

namespace Hadar

open Spec

theorem low_le {c x u : ℚ} (hx : 0 ≤ x ∧ x ≤ u) : -(max 0 (-c) * u) ≤ c * x := by
  rcases le_total 0 (-c) with h | h
  · rw [max_eq_right h]
    nlinarith [hx.1, hx.2]
  · rw [max_eq_left h]
    nlinarith [hx.1, hx.2]

theorem low_eq {c x u : ℚ} (h : Best c x u) : c * x = -(max 0 (-c) * u) := by
  rcases lt_trichotomy c 0 with hc | hc | hc
  · rw [h.2 hc, max_eq_right (by linarith)]
    ring
  · subst hc
    simp
  · rw [h.1 hc, max_eq_left (by linarith)]
    ring

theorem min_pay (p v q : ℚ) : min p v * q = p * q + -(max 0 (-(v - p)) * q) := by
  rcases le_total p v with h | h
  · rw [min_eq_left h, max_eq_left (by linarith)]
    ring
  · rw [min_eq_right h, max_eq_right (by linarith)]
    ring

variable (s : Study) (k : ℕ) (P : Prices)

/-- least of `nodeRed` -/
def nodeLow (t : ℕ) (g d : String) (n : InputNode) : ℚ :=
  sumI n.consumptions (fun c _ => -(max 0 (-(val c.cost k t - P.node g d t)) * val c.quantity k t)) +
  sumI n.productions (fun c _ => -(max 0 (-(val c.cost k t - P.node g d t)) * val c.quantity k t)) +
  sumI n.links (fun c _ => -(max 0 (-(val c.cost k t + P.node g d t - P.node g c.dest t)) * val c.quantity k t)) +
  sumI n.storages (fun c i =>
    -(max 0 (-(val c.cost k t + P.stored g d i t - P.storedNext s.horizon g d i t)) * val c.capacity k t)) +
  sumI n.storages (fun c i => -(max 0 (-(P.node g d t - val c.eff k t * P.stored g d i t)) * val c.flowIn k t)) +
  sumI n.storages (fun c i => -(max 0 (-(P.stored g d i t - P.node g d t)) * val c.flowOut k t))

/-- least of `convRed` -/
def convLow (t : ℕ) (p : String × Converter) : ℚ :=
  -(max 0 (-(fval p.2.cost k t + (sumL p.2.srcRatios fun q => P.used p.1 (srcPair q.1) t) -
      P.node p.2.destNetwork p.2.destNode t)) * fval p.2.max k t) +
  sumL p.2.srcRatios fun q =>
    -(max 0 (-(P.node (srcPair q.1).1 (srcPair q.1).2 t - val q.2 k t * P.used p.1 (srcPair q.1) t)) *
      (fval p.2.max k t / val q.2 k t))

def lows : ℚ := sumL (List.range s.horizon) fun t =>
  sumN s (nodeLow s k P t) + sumL s.converters (convLow k P t)

variable {s k P}

theorem lows_le {D : Dispatch} (hi : StudyInv s) (hz : DrainsPriced s k P) (hb : Bounds s k D) : lows s k P ≤ reds s k P D := by
  unfold reds lows
  apply sumL_le
  intro t ht
  have ht := List.mem_range.mp ht
  apply add_le_add
  · unfold sumN
    apply sumL_le
    rintro ⟨g, net⟩ hg
    apply sumL_le
    rintro ⟨d, n⟩ hd
    have hn : HasNode s g d n := ⟨net, hg, hd⟩
    dsimp only
    unfold nodeRed nodeLow
    refine add_le_add (add_le_add (add_le_add (add_le_add (add_le_add ?_ ?_) ?_) ?_) ?_) ?_ <;> apply sumI_le <;> intro c i hc
    · exact low_le (hb.consumptions g d n hn i c hc t ht)
    · exact low_le (hb.productions g d n hn i c hc t ht)
    · exact low_le (hb.links g d n hn i c hc t ht)
    · exact low_le (hb.storages g d n hn i c hc t ht).1
    · exact low_le (hb.storages g d n hn i c hc t ht).2.1
    · exact low_le (hb.storages g d n hn i c hc t ht).2.2
  · apply sumL_le
    intro p hp
    unfold convRed convLow
    apply add_le_add
    · exact low_le (hb.convDest p hp t ht)
    · apply sumL_le
      intro q hq
      obtain ⟨g, d, n, e, hn⟩ := (hi.convs p hp).sources q.1 (List.mem_map.mpr ⟨q, hq, rfl⟩)
      have hq' : ([g, d], q.2) ∈ p.2.srcRatios := by rw [← e]; exact hq
      rw [e]
      have h2 := hb.convSrc p hp g d q.2 hq' t ht
      by_cases h0 : val q.2 k t = 0
      · simp only [srcPair, h0, zero_mul, sub_zero, div_zero, mul_zero, neg_zero]
        exact mul_nonneg (hz p hp g d q.2 hq' t ht h0) h2.1
      · exact low_le ⟨h2.1, h2.2 h0⟩

theorem lows_eq {D : Dispatch} (hi : StudyInv s) (he : Equilibrium s k D P) : reds s k P D = lows s k P := by
  unfold reds lows
  apply sumL_congr
  intro t ht
  have ht := List.mem_range.mp ht
  congr 1
  · apply sumN_congr
    intro g d n hn
    unfold nodeRed nodeLow
    congr 1
    · congr 1
      · congr 1
        · congr 1
          · congr 1
            · exact sumI_congr fun c i hc => low_eq (he.consumptions g d n hn i c hc t ht)
            · exact sumI_congr fun c i hc => low_eq (he.productions g d n hn i c hc t ht)
          · exact sumI_congr fun c i hc => low_eq (he.links g d n hn i c hc t ht)
        · exact sumI_congr fun c i hc => low_eq (he.held g d n hn i c hc t ht)
      · exact sumI_congr fun c i hc => low_eq (he.filled g d n hn i c hc t ht)
    · exact sumI_congr fun c i hc => low_eq (he.emptied g d n hn i c hc t ht)
  · apply sumL_congr
    intro p hp
    unfold convRed convLow
    congr 1
    · exact low_eq (he.given p hp t ht)
    · apply sumL_congr
      intro q hq
      obtain ⟨g, d, n, e, hn⟩ := (hi.convs p hp).sources q.1 (List.mem_map.mpr ⟨q, hq, rfl⟩)
      have hq' : ([g, d], q.2) ∈ p.2.srcRatios := by rw [← e]; exact hq
      rw [e]
      have h1 := he.taken p hp g d q.2 hq' t ht
      by_cases h0 : val q.2 k t = 0
      · obtain ⟨h2, h3⟩ := h1.2 h0
        simp only [srcPair, h0, zero_mul, sub_zero, div_zero, mul_zero, neg_zero]
        rcases h2.lt_or_eq with h5 | h5
        · rw [h3 h5, mul_zero]
        · rw [← h5, zero_mul]
      · exact low_eq (h1.1 h0)

theorem Spec.Equilibrium.drains {D : Dispatch} (he : Equilibrium s k D P) : DrainsPriced s k P :=
  fun p hp g d r hr t ht h0 => ((he.taken p hp g d r hr t ht).2 h0).1

theorem sumI_neg' {α : Type} (l : List α) (f : α → ℕ → ℚ) : (sumI l fun a i => -f a i) = -sumI l f := by
  rw [sumI_eq, sumI_eq, ← sumL_neg]

theorem sumL_range_first (h : ℕ) (c : ℚ) : (sumL (List.range h) fun t => if t = 0 then c else 0) = if h = 0 then 0 else c := by
  induction h with
  | zero => rfl
  | succ h ih =>
    rw [List.range_succ, sumL_append, ih]
    rcases h with _ | h
    · simp [sumL]
    · simp [sumL]

theorem worth_eq : worth s k P =
    (sumL (List.range s.horizon) fun t => sumN s fun g d n =>
      P.node g d t * sumI n.consumptions (fun c _ => val c.quantity k t) -
      sumI n.storages fun c i => P.stored g d i t * if t = 0 then c.initCapacity else 0) + lows s k P := by
  unfold worth lows
  rw [← sumL_range_first, ← sumL_sub, ← sumL_add]
  apply sumL_congr
  intro t _
  have h1 : sumL s.converters (convLow k P t) = -sumL s.converters (convWorth k P t) := by
    rw [← sumL_neg]
    apply sumL_congr
    intro p _
    unfold convLow convWorth
    rw [sumL_neg, neg_add]
    congr 1
    · congr 3
      ring
    · congr 1
      apply sumL_congr
      intro q _
      congr 2
      ring
  have h2 : (if t = 0 then sumL s.networks fun p => sumL p.2.nodes fun q => firstWorth P p.1 q.1 q.2 else 0) =
      sumN s fun g d n => sumI n.storages fun c i => P.stored g d i t * if t = 0 then c.initCapacity else 0 := by
    split_ifs with h
    · subst h
      rfl
    · simp only [mul_zero, sumI_zero]
      rw [sumN_zero]
  have h3 : (sumL s.networks fun p => sumL p.2.nodes fun q => nodeWorth s k P t p.1 q.1 q.2) =
      sumN s fun g d n => P.node g d t * sumI n.consumptions (fun c _ => val c.quantity k t) + nodeLow s k P t g d n := by
    apply sumN_congr
    intro g d n _
    unfold nodeWorth nodeLow
    simp only [min_pay, sumI_add, sumI_neg', sumI_mul]
    have e : ∀ x y z : ℚ, -(x + y - z) = z - y - x := by intros; ring
    have e' : ∀ x y : ℚ, -(x - y) = y - x := by intros; ring
    simp only [e, e']
    ring
  rw [h1, h2, h3, sumN_add, sumN_sub]
  ring

theorem worth_le_cost {D : Dispatch} (hi : StudyInv s)
    (hdest : ∀ p ∈ s.converters, ∃ n, HasNode s p.2.destNetwork p.2.destNode n) (hz : DrainsPriced s k P)
    (hD : Spec.Feasible s k D) : worth s k P ≤ cost s k D := by
  rw [cost_eq_rows_reds (P := P) hi hdest, rows_const hi hD, worth_eq]
  linarith [lows_le (P := P) hi hz hD.bounds]

theorem worth_eq_cost {D : Dispatch} (hi : StudyInv s)
    (hdest : ∀ p ∈ s.converters, ∃ n, HasNode s p.2.destNetwork p.2.destNode n) (hD : Spec.Feasible s k D)
    (he : Equilibrium s k D P) : cost s k D = worth s k P := by
  rw [cost_eq_rows_reds (P := P) hi hdest, rows_const hi hD, worth_eq, lows_eq hi he]

end Hadar

namespace Hadar

open Spec

variable {s s' : Study} {k k' : ℕ} {P : Prices}

/-- what is left of the worth without loads -/
def restWorth (s : Study) (k : ℕ) (P : Prices) (t : ℕ) (g d : String) (n : InputNode) : ℚ :=
  sumI n.productions (fun c _ => max 0 (P.node g d t - val c.cost k t) * val c.quantity k t) +
  sumI n.links (fun c _ => max 0 (P.node g c.dest t - P.node g d t - val c.cost k t) * val c.quantity k t) +
  sumI n.storages (fun c i =>
    max 0 (P.storedNext s.horizon g d i t - P.stored g d i t - val c.cost k t) * val c.capacity k t) +
  sumI n.storages (fun c i => max 0 (val c.eff k t * P.stored g d i t - P.node g d t) * val c.flowIn k t) +
  sumI n.storages (fun c i => max 0 (P.node g d t - P.stored g d i t) * val c.flowOut k t)

theorem worth_loads : worth s k P = loadWorth s k P -
    (sumL (List.range s.horizon) fun t => sumN s (restWorth s k P t) + sumL s.converters (convWorth k P t)) -
    if s.horizon = 0 then 0 else sumN s (firstWorth P) := by
  unfold worth loadWorth
  rw [← sumL_sub]
  congr 1
  apply sumL_congr
  intro t _
  have : sumN s (nodeWorth s k P t) =
      (sumN s fun g d n => sumI n.consumptions fun c _ => min (P.node g d t) (val c.cost k t) * val c.quantity k t) -
        sumN s (restWorth s k P t) := by
    rw [← sumN_sub]
    apply sumN_congr
    intro g d n _
    unfold nodeWorth restWorth
    ring
  have e : (sumL s.networks fun p => sumL p.2.nodes fun q => nodeWorth s k P t p.1 q.1 q.2) = sumN s (nodeWorth s k P t) := rfl
  rw [e, this]
  unfold sumN
  ring

theorem sumN_alike {N : String → String → InputNode → InputNode → Prop} {C : String → Converter → Converter → Prop}
    (h : Alike N C s s') {f f' : String → String → InputNode → ℚ} (hf : ∀ g d n n', N g d n n' → f g d n = f' g d n') :
    sumN s f = sumN s' f' := by
  unfold sumN
  apply sumL_rel h.networks
  rintro ⟨g, net⟩ _ ⟨g', net'⟩ _ ⟨e, hn⟩
  cases e
  apply sumL_rel hn
  rintro ⟨d, n⟩ _ ⟨d', n'⟩ _ ⟨e, hN⟩
  cases e
  exact hf _ _ _ _ hN

theorem drains_otherLoads (h : OtherLoads s k s' k') (hz : DrainsPriced s k P) : DrainsPriced s' k' P := by
  intro p' hp' g d r' hr' t ht h0
  obtain ⟨p, hp, e, hC⟩ := Alike.conv h hp'
  obtain ⟨⟨key, r⟩, hq, e', hs⟩ := forall₂_mem_right hC.sources hr'
  dsimp only at e' hs
  subst e'
  have ht : t < s.horizon := by rw [h.horizon]; exact ht
  exact hz p hp g d r hq t ht (by rw [hs t ht]; exact h0)

theorem worth_otherLoads (h : OtherLoads s k s' k') :
    worth s' k' P - worth s k P = loadWorth s' k' P - loadWorth s k P := by
  have h0 := h.horizon
  have e1 : sumN s (firstWorth P) = sumN s' (firstWorth P) := by
    apply sumN_alike h
    rintro g d n n' ⟨-, hn⟩
    apply sumI_rel hn.storages
    intro i a b _ _ hab
    rw [hab.2.2.2.2.1]
  have e2 : (sumL (List.range s.horizon) fun t => sumN s (restWorth s k P t) + sumL s.converters (convWorth k P t)) =
      sumL (List.range s'.horizon) fun t => sumN s' (restWorth s' k' P t) + sumL s'.converters (convWorth k' P t) := by
    rw [← h0]
    apply sumL_congr
    intro t ht
    have ht := List.mem_range.mp ht
    congr 1
    · apply sumN_alike h
      rintro g d n n' ⟨-, hn⟩
      unfold restWorth
      rw [← h0]
      congr 1
      · congr 1
        · congr 1
          · congr 1
            · apply sumI_rel hn.productions
              intro i a b _ _ hab
              rw [hab.1 t ht, hab.2 t ht]
            · apply sumI_rel hn.links
              intro i a b _ _ hab
              rw [hab.1, hab.2.1 t ht, hab.2.2 t ht]
          · apply sumI_rel hn.storages
            intro i a b _ _ hab
            rw [hab.1 t ht, hab.2.2.2.1 t ht]
        · apply sumI_rel hn.storages
          intro i a b _ _ hab
          rw [hab.2.1 t ht, hab.2.2.2.2.2 t ht]
      · apply sumI_rel hn.storages
        intro i a b _ _ hab
        rw [hab.2.2.1 t ht]
    · apply sumL_rel h.converters
      rintro ⟨x, c⟩ _ ⟨x', c'⟩ _ ⟨e, hc⟩
      cases e
      unfold convWorth
      dsimp only
      rw [hc.destNetwork, hc.destNode, hc.cost t ht, hc.max t ht]
      have e3 : (sumL c.srcRatios fun q => P.used x (srcPair q.1) t) = sumL c'.srcRatios fun q => P.used x (srcPair q.1) t := by
        apply sumL_rel hc.sources
        intro a _ b _ hab
        rw [hab.1]
      rw [e3]
      congr 1
      apply sumL_rel hc.sources
      intro a _ b _ hab
      rw [hab.1, hab.2 t ht]
  rw [worth_loads, worth_loads, e1, e2, ← h0]
  ring

end Hadar
