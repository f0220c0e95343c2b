import Verif.Spec.Prices
import Verif.Proofs.Farkas
import Verif.Proofs.Aggregates
import Verif.Proofs.Sensitivity

/-!
# Prices and reduced costs
-/

namespace Hadar

open Spec

/-! ### Sums over nodes -/

/-- sum over the nodes of a study -/
def sumN (s : Study) (f : String → String → InputNode → ℚ) : ℚ :=
  sumL s.networks fun p => sumL p.2.nodes fun q => f p.1 q.1 q.2

theorem sumN_congr {s : Study} {f f' : String → String → InputNode → ℚ}
    (h : ∀ g d n, HasNode s g d n → f g d n = f' g d n) : sumN s f = sumN s f' :=
  sumL_congr fun p hp => sumL_congr fun q hq => h _ _ _ ⟨p.2, hp, hq⟩

theorem sumN_add (s : Study) (f f' : String → String → InputNode → ℚ) :
    (sumN s fun g d n => f g d n + f' g d n) = sumN s f + sumN s f' := by
  unfold sumN
  simp only [sumL_add]

theorem sumN_sub (s : Study) (f f' : String → String → InputNode → ℚ) :
    (sumN s fun g d n => f g d n - f' g d n) = sumN s f - sumN s f' := by
  unfold sumN
  simp only [sumL_sub]

theorem sumN_zero (s : Study) : (sumN s fun _ _ _ => 0) = 0 := by
  unfold sumN
  simp only [sumL_zero]

theorem sumN_sumL {α : Type} (s : Study) (l : List α) (f : String → String → InputNode → α → ℚ) :
    (sumN s fun g d n => sumL l fun a => f g d n a) = sumL l fun a => sumN s fun g d n => f g d n a := by
  unfold sumN
  rw [sumL_swap (l' := s.networks)] 
  apply sumL_congr
  intro p _
  exact sumL_swap ..

theorem sumN_pick {s : Study} (hi : StudyInv s) {g d : String} {n : InputNode} (hn : HasNode s g d n)
    {f : String → String → InputNode → ℚ} (h : ∀ g' d' n', HasNode s g' d' n' → ¬ (g' = g ∧ d' = d) → f g' d' n' = 0) :
    sumN s f = f g d n := by
  obtain ⟨net, hg, hd⟩ := hn
  unfold sumN
  have := sumL_bump (f := fun p => sumL p.2.nodes fun q => f p.1 q.1 q.2) (g := fun _ => 0) hi.names.networks.of_map hg
    (e := f g d n) (by
      rw [zero_add]
      have := sumL_bump (f := fun q => f g q.1 q.2) (g := fun _ => 0) (hi.names.nodes _ hg).of_map hd (e := f g d n)
        (by simp) (by
          rintro ⟨d', n'⟩ hd' hne
          apply h _ _ _ ⟨net, hg, hd'⟩
          rintro ⟨_, e⟩
          subst e
          exact hne (List.inj_on_of_nodup_map (hi.names.nodes _ hg) hd' hd rfl))
      rw [this, sumL_zero, zero_add])
    (by
      rintro ⟨g', net'⟩ hg' hne
      apply sumL_eq_zero
      rintro ⟨d', n'⟩ hd'
      apply h _ _ _ ⟨net', hg', hd'⟩
      rintro ⟨e, _⟩
      subst e
      exact hne (List.inj_on_of_nodup_map hi.names.networks hg' hg rfl))
  rw [this, sumL_zero, zero_add]

/-- what links bring to nodes is what they take from nodes -/
theorem sumN_imports {s : Study} (hi : StudyInv s) (D : Dispatch) (F : String → String → ℚ) (t : ℕ) :
    (sumN s fun g d _ => F g d * imports s D g d t) =
      sumN s fun g d n => sumI n.links fun l i => F g l.dest * D.link g d i t := by
  unfold sumN
  apply sumL_congr
  rintro ⟨g, net⟩ hg
  dsimp only
  simp only [imports_eq hi hg, ← sumL_mul]
  rw [sumL_swap]
  apply sumL_congr
  rintro ⟨d, n⟩ hd
  dsimp only
  simp only [sumI_eq, ← sumL_mul]
  rw [sumL_swap]
  apply sumL_congr
  rintro ⟨l, i⟩ hl
  dsimp only
  rw [← sumL_pick (hi.names.nodes _ hg) (hi.links g net hg d n hd l (mem_of_mem_zipIdx hl)) (F g l.dest * D.link g d i t)]
  apply sumL_congr
  intro q _
  split_ifs with h
  · rw [h]
  · rw [mul_zero]

theorem sumN_from {s : Study} (hi : StudyInv s)
    (hdest : ∀ p ∈ s.converters, ∃ n, HasNode s p.2.destNetwork p.2.destNode n) (D : Dispatch) (F : String → String → ℚ) (t : ℕ) :
    (sumN s fun g d _ => F g d * fromConverters s D g d t) =
      sumL s.converters fun p => F p.2.destNetwork p.2.destNode * D.convDest p.1 t := by
  simp only [fromConverters, ← sumL_mul]
  rw [sumN_sumL]
  apply sumL_congr
  intro p hp
  obtain ⟨n, hn⟩ := hdest p hp
  rw [sumN_pick hi hn]
  · simp
  · intro g' d' n' _ h
    rw [if_neg (fun e => h ⟨e.1.symm, e.2.symm⟩), mul_zero]

theorem sumN_to {s : Study} (hi : StudyInv s) (D : Dispatch) (F : String → String → ℚ) (t : ℕ) :
    (sumN s fun g d _ => F g d * toConverters s D g d t) =
      sumL s.converters fun p => sumL p.2.srcRatios fun q =>
        F (srcPair q.1).1 (srcPair q.1).2 * D.convSrc p.1 (srcPair q.1) t := by
  simp only [toConverters, ← sumL_mul]
  rw [sumN_sumL]
  apply sumL_congr
  intro p hp
  rw [sumN_sumL]
  apply sumL_congr
  intro q hq
  obtain ⟨g, d, n, e, hn⟩ := (hi.convs p hp).sources q.1 (List.mem_map.mpr ⟨q, hq, rfl⟩)
  rw [sumN_pick hi hn]
  · simp [e, srcPair]
  · intro g' d' n' _ h
    rw [e, if_neg, mul_zero]
    intro e'
    simp only [List.cons.injEq, and_true] at e'
    exact h ⟨e'.1.symm, e'.2.symm⟩

/-! ### Reduced costs -/

variable (s : Study) (k : ℕ) (P : Prices)

/-- what a node loses with the prices -/
def nodeRed (D : Dispatch) (t : ℕ) (g d : String) (n : InputNode) : ℚ :=
  sumI n.consumptions (fun c i => (val c.cost k t - P.node g d t) * D.lol g d i t) +
  sumI n.productions (fun c i => (val c.cost k t - P.node g d t) * D.prod g d i t) +
  sumI n.links (fun c i => (val c.cost k t + P.node g d t - P.node g c.dest t) * D.link g d i t) +
  sumI n.storages (fun c i => (val c.cost k t + P.stored g d i t - P.storedNext s.horizon g d i t) * D.cap g d i t) +
  sumI n.storages (fun c i => (P.node g d t - val c.eff k t * P.stored g d i t) * D.fin g d i t) +
  sumI n.storages (fun _ i => (P.stored g d i t - P.node g d t) * D.fout g d i t)

/-- what a converter loses with the prices -/
def convRed (D : Dispatch) (t : ℕ) (p : String × Converter) : ℚ :=
  (fval p.2.cost k t + (sumL p.2.srcRatios fun q => P.used p.1 (srcPair q.1) t) -
      P.node p.2.destNetwork p.2.destNode t) * D.convDest p.1 t +
  sumL p.2.srcRatios fun q => (P.node (srcPair q.1).1 (srcPair q.1).2 t - val q.2 k t * P.used p.1 (srcPair q.1) t) *
    D.convSrc p.1 (srcPair q.1) t

def reds (D : Dispatch) : ℚ := sumL (List.range s.horizon) fun t =>
  sumN s (nodeRed s k P D t) + sumL s.converters (convRed k P D t)

/-- level before a step, for a storage empty at first -/
def capBefore (D : Dispatch) (g d : String) (i t : ℕ) : ℚ := if t = 0 then 0 else D.cap g d i (t - 1)

/-- the constraints of a node, weighted -/
def nodeRows (D : Dispatch) (t : ℕ) (g d : String) (n : InputNode) : ℚ :=
  P.node g d t * (sumI n.consumptions (fun c _ => val c.quantity k t) + (incoming s D g d n t - outgoing s k D g d n t)) -
  sumI n.storages fun c i => P.stored g d i t *
    (D.cap g d i t + D.fout g d i t - val c.eff k t * D.fin g d i t - capBefore D g d i t)

/-- the constraints of a converter, weighted -/
def convRows (D : Dispatch) (t : ℕ) (p : String × Converter) : ℚ :=
  sumL p.2.srcRatios fun q => P.used p.1 (srcPair q.1) t *
    (val q.2 k t * D.convSrc p.1 (srcPair q.1) t - D.convDest p.1 t)

def rows (D : Dispatch) : ℚ := sumL (List.range s.horizon) fun t =>
  sumN s (nodeRows s k P D t) + sumL s.converters (convRows k P D t)

theorem sumL_range_shift (h : ℕ) (w c : ℕ → ℚ) :
    (sumL (List.range h) fun t => w t * (c t - if t = 0 then 0 else c (t - 1))) =
      sumL (List.range h) fun t => (w t - if t + 1 < h then w (t + 1) else 0) * c t := by
  induction h with
  | zero => rfl
  | succ h ih =>
    rw [List.range_succ, sumL_append, sumL_append, ih]
    have e : (sumL (List.range h) fun t => (w t - if t + 1 < h + 1 then w (t + 1) else 0) * c t) =
        (sumL (List.range h) fun t => (w t - if t + 1 < h then w (t + 1) else 0) * c t) -
          if h = 0 then 0 else w h * c (h - 1) := by
      rcases h with _ | h
      · simp [sumL]
      · rw [List.range_succ, sumL_append, sumL_append]
        have : (sumL (List.range h) fun t => (w t - if t + 1 < h + 1 + 1 then w (t + 1) else 0) * c t) =
            sumL (List.range h) fun t => (w t - if t + 1 < h + 1 then w (t + 1) else 0) * c t := by
          apply sumL_congr
          intro t ht
          have := List.mem_range.mp ht
          rw [if_pos (by omega), if_pos (by omega)]
        rw [this]
        simp [sumL]
        ring
    rw [e]
    simp only [sumL, List.map_cons, List.map_nil, List.sum_cons, List.sum_nil, lt_irrefl, if_false]
    split_ifs <;> ring

theorem sumI_add {α : Type} (l : List α) (f f' : α → ℕ → ℚ) :
    (sumI l fun a i => f a i + f' a i) = sumI l f + sumI l f' := by
  simp only [sumI_eq, sumL_add]

theorem sumI_sub {α : Type} (l : List α) (f f' : α → ℕ → ℚ) :
    (sumI l fun a i => f a i - f' a i) = sumI l f - sumI l f' := by
  simp only [sumI_eq, sumL_sub]

theorem sumN_sumL_range (h : ℕ) (f : ℕ → String → String → InputNode → ℚ) :
    (sumL (List.range h) fun t => sumN s (f t)) = sumN s fun g d n => sumL (List.range h) fun t => f t g d n :=
  (sumN_sumL s (List.range h) fun g d n t => f t g d n).symm

/-- the holding of storages, seen from the levels -/
theorem stored_shift (D : Dispatch) :
    (sumL (List.range s.horizon) fun t => sumN s fun g d n => sumI n.storages fun _ i =>
      P.stored g d i t * (D.cap g d i t - capBefore D g d i t)) =
    sumL (List.range s.horizon) fun t => sumN s fun g d n => sumI n.storages fun _ i =>
      (P.stored g d i t - P.storedNext s.horizon g d i t) * D.cap g d i t := by
  rw [sumN_sumL_range, sumN_sumL_range]
  apply sumN_congr
  intro g d n _
  simp only [sumI_eq]
  rw [sumL_swap, sumL_swap (l := List.range s.horizon)]
  apply sumL_congr
  rintro ⟨c, i⟩ _
  exact sumL_range_shift s.horizon (fun t => P.stored g d i t) fun t => D.cap g d i t

variable {s k P}

theorem cost_eq_rows_reds (hi : StudyInv s) (hdest : ∀ p ∈ s.converters, ∃ n, HasNode s p.2.destNetwork p.2.destNode n)
    (D : Dispatch) : cost s k D = rows s k P D + reds s k P D := by
  have h0 := stored_shift s P D
  have e : ∀ t, (sumN s (nodeRows s k P D t) + sumL s.converters (convRows k P D t)) +
      (sumN s (nodeRed s k P D t) + sumL s.converters (convRed k P D t)) =
      (sumN s (nodeCost k D · · · t) + sumL s.converters fun p => fval p.2.cost k t * D.convDest p.1 t) +
      ((sumN s fun g d n => sumI n.storages fun _ i =>
        (P.stored g d i t - P.storedNext s.horizon g d i t) * D.cap g d i t) -
      sumN s fun g d n => sumI n.storages fun _ i => P.stored g d i t * (D.cap g d i t - capBefore D g d i t)) := by
    intro t
    have h1 := sumN_imports hi D (fun g d => P.node g d t) t
    have h2 := sumN_from hi hdest D (fun g d => P.node g d t) t
    have h3 := sumN_to hi D (fun g d => P.node g d t) t
    have h4 : sumN s (nodeRows s k P D t) + sumN s (nodeRed s k P D t) = sumN s (nodeCost k D · · · t) +
        ((sumN s fun g d n => sumI n.storages fun _ i =>
          (P.stored g d i t - P.storedNext s.horizon g d i t) * D.cap g d i t) -
        sumN s fun g d n => sumI n.storages fun _ i => P.stored g d i t * (D.cap g d i t - capBefore D g d i t)) +
        ((sumN s fun g d _ => P.node g d t * imports s D g d t) -
          sumN s fun g d n => sumI n.links fun l i => P.node g l.dest t * D.link g d i t) +
        (sumN s fun g d _ => P.node g d t * fromConverters s D g d t) -
        (sumN s fun g d _ => P.node g d t * toConverters s D g d t) := by
      simp only [← sumN_add, ← sumN_sub]
      apply sumN_congr
      intro g d n _
      unfold nodeRows nodeRed nodeCost incoming outgoing
      have hm : ∀ i (v : NumVal) x, P.stored g d i t * (val v k t * x) = val v k t * (P.stored g d i t * x) := by
        intros
        ring
      simp only [sub_mul, add_mul, mul_sub, mul_add, sumI_add, sumI_sub, sumI_mul, mul_assoc, hm]
      ring
    have h5 : sumL s.converters (convRows k P D t) + sumL s.converters (convRed k P D t) =
        (sumL s.converters fun p => fval p.2.cost k t * D.convDest p.1 t) -
        (sumL s.converters fun p => P.node p.2.destNetwork p.2.destNode t * D.convDest p.1 t) +
        sumL s.converters fun p => sumL p.2.srcRatios fun q =>
          P.node (srcPair q.1).1 (srcPair q.1).2 t * D.convSrc p.1 (srcPair q.1) t := by
      rw [← sumL_sub, ← sumL_add, ← sumL_add]
      apply sumL_congr
      intro p _
      unfold convRows convRed
      have : (sumL p.2.srcRatios fun q => P.used p.1 (srcPair q.1) t) * D.convDest p.1 t =
          sumL p.2.srcRatios fun q => P.used p.1 (srcPair q.1) t * D.convDest p.1 t := by
        rw [mul_comm, ← sumL_mul]
        apply sumL_congr
        intros
        ring
      rw [sub_mul, add_mul, this]
      have h6 : (sumL p.2.srcRatios fun q => P.used p.1 (srcPair q.1) t *
          (val q.2 k t * D.convSrc p.1 (srcPair q.1) t - D.convDest p.1 t)) +
          (sumL p.2.srcRatios fun q => P.used p.1 (srcPair q.1) t * D.convDest p.1 t) +
          (sumL p.2.srcRatios fun q => (P.node (srcPair q.1).1 (srcPair q.1).2 t - val q.2 k t * P.used p.1 (srcPair q.1) t) *
            D.convSrc p.1 (srcPair q.1) t) =
          sumL p.2.srcRatios fun q => P.node (srcPair q.1).1 (srcPair q.1).2 t * D.convSrc p.1 (srcPair q.1) t := by
        rw [← sumL_add, ← sumL_add]
        apply sumL_congr
        intros
        ring
      linarith
    linarith
  unfold rows reds
  rw [← sumL_add, sumL_congr fun t _ => e t, sumL_add, sumL_sub, h0, sub_self, add_zero]
  rfl

end Hadar

namespace Hadar

open Spec

/-! ### Prices make a dispatch least costly -/

theorem best_le {c x x' u : ℚ} (h : Best c x u) (hx : 0 ≤ x' ∧ x' ≤ u) : c * x ≤ c * x' := by
  rcases lt_trichotomy c 0 with hc | hc | hc
  · rw [h.2 hc]
    exact mul_le_mul_of_nonpos_left hx.2 hc.le
  · simp [hc]
  · rw [h.1 hc]
    exact mul_le_mul_of_nonneg_left hx.1 hc.le

theorem sumL_le {α : Type} {l : List α} {f f' : α → ℚ} (h : ∀ a ∈ l, f a ≤ f' a) : sumL l f ≤ sumL l f' := by
  induction l with
  | nil => exact le_refl _
  | cons a l ih =>
    simp only [sumL, List.map_cons, List.sum_cons]
    exact add_le_add (h a List.mem_cons_self) (ih fun b hb => h b (List.mem_cons_of_mem _ hb))

theorem sumI_le {α : Type} {l : List α} {f f' : α → ℕ → ℚ} (h : ∀ a i, l[i]? = some a → f a i ≤ f' a i) :
    sumI l f ≤ sumI l f' := by
  rw [sumI_eq, sumI_eq]
  apply sumL_le
  rintro ⟨a, i⟩ ha
  exact h a i (mem_zipIdx_iff.mp ha)

variable {s : Study} {k : ℕ} {P : Prices}

theorem rows_const {D : Dispatch} (hi : StudyInv s) (hD : Spec.Feasible s k D) : rows s k P D =
    sumL (List.range s.horizon) fun t => sumN s fun g d n => P.node g d t * sumI n.consumptions (fun c _ => val c.quantity k t) -
      sumI n.storages fun c i => P.stored g d i t * if t = 0 then c.initCapacity else 0 := by
  unfold rows
  apply sumL_congr
  intro t ht
  have ht := List.mem_range.mp ht
  have h1 : sumL s.converters (convRows k P D t) = 0 := by
    apply sumL_eq_zero
    intro p hp
    apply sumL_eq_zero
    intro q hq
    obtain ⟨g, d, n, e, hn⟩ := (hi.convs p hp).sources q.1 (List.mem_map.mpr ⟨q, hq, rfl⟩)
    have := hD.ratios p hp g d q.2 (by rw [← e]; exact hq) t ht
    rw [e]
    simp only [srcPair]
    rw [← this]
    ring
  rw [h1, add_zero]
  apply sumN_congr
  intro g d n hn
  unfold nodeRows
  rw [hD.balanced g d n hn t ht, sub_self, add_zero]
  congr 1
  apply sumI_congr
  intro c i hc
  have := hD.storages g d n hn i c hc t ht
  unfold Evolves at this
  rw [this]
  congr 1
  unfold capBefore
  rcases t with _ | t
  · simp [levelBefore]
  · simp [levelBefore]

theorem equilibrium_reds {D D' : Dispatch} (hi : StudyInv s) (he : Equilibrium s k D P) (hb : Bounds s k D') :
    reds s k P D ≤ reds s k P D' := by
  unfold reds
  apply sumL_le
  intro t ht
  have ht := List.mem_range.mp ht
  apply add_le_add
  · unfold sumN
    apply sumL_le
    rintro ⟨g, net⟩ hg
    apply sumL_le
    rintro ⟨d, n⟩ hd
    have hn : HasNode s g d n := ⟨net, hg, hd⟩
    dsimp only
    unfold nodeRed
    refine add_le_add (add_le_add (add_le_add (add_le_add (add_le_add ?_ ?_) ?_) ?_) ?_) ?_ <;> apply sumI_le <;> intro c i hc
    · exact best_le (he.consumptions g d n hn i c hc t ht) (hb.consumptions g d n hn i c hc t ht)
    · exact best_le (he.productions g d n hn i c hc t ht) (hb.productions g d n hn i c hc t ht)
    · exact best_le (he.links g d n hn i c hc t ht) (hb.links g d n hn i c hc t ht)
    · exact best_le (he.held g d n hn i c hc t ht) (hb.storages g d n hn i c hc t ht).1
    · exact best_le (he.filled g d n hn i c hc t ht) (hb.storages g d n hn i c hc t ht).2.1
    · exact best_le (he.emptied g d n hn i c hc t ht) (hb.storages g d n hn i c hc t ht).2.2
  · apply sumL_le
    intro p hp
    unfold convRed
    apply add_le_add
    · exact best_le (he.given p hp t ht) (hb.convDest p hp t ht)
    · apply sumL_le
      intro q hq
      obtain ⟨g, d, n, e, hn⟩ := (hi.convs p hp).sources q.1 (List.mem_map.mpr ⟨q, hq, rfl⟩)
      have hq' : ([g, d], q.2) ∈ p.2.srcRatios := by rw [← e]; exact hq
      rw [e]
      have h1 := he.taken p hp g d q.2 hq' t ht
      have h2 := hb.convSrc p hp g d q.2 hq' t ht
      by_cases hz : val q.2 k t = 0
      · obtain ⟨h3, h4⟩ := h1.2 hz
        simp only [srcPair, hz, zero_mul, sub_zero]
        rcases h3.lt_or_eq with h5 | h5
        · rw [h4 h5, mul_zero]
          exact mul_nonneg h3 h2.1
        · rw [← h5, zero_mul, zero_mul]
      · exact best_le (h1.1 hz) ⟨h2.1, h2.2 hz⟩

theorem equilibrium_least {D D' : Dispatch} (hi : StudyInv s)
    (hdest : ∀ p ∈ s.converters, ∃ n, HasNode s p.2.destNetwork p.2.destNode n) (hD : Spec.Feasible s k D)
    (he : Equilibrium s k D P) (hD' : Spec.Feasible s k D') : cost s k D ≤ cost s k D' := by
  rw [cost_eq_rows_reds (P := P) hi hdest, cost_eq_rows_reds (P := P) hi hdest, rows_const hi hD, rows_const hi hD']
  linarith [equilibrium_reds hi he hD'.bounds]

theorem sumI_pick {α : Type} {l : List α} {a : α} {i : ℕ} (ha : l[i]? = some a) {f : α → ℕ → ℚ}
    (h : ∀ b j, j ≠ i → f b j = 0) : sumI l f = f a i := by
  have := sumI_bump ha (f := f) (g := fun _ _ => 0) (e := f a i) (by simp) h
  rw [this, sumI_zero, zero_add]

/-! ### The multipliers of the solver's problem are prices -/

open Minimum Cmd

theorem rowsOf_append (l l' : List Cmd) : rowsOf (l ++ l') = rowsOf l ++ rowsOf l' := List.filterMap_append

theorem rowsOf_flatMap {α : Type} (l : List α) (f : α → List Cmd) :
    rowsOf (l.flatMap f) = l.flatMap fun a => rowsOf (f a) := List.filterMap_flatMap

theorem rowsOf_nil {l : List Cmd} (h : ∀ r lo hi, Cmd.constraint r lo hi ∉ l) : rowsOf l = [] := by
  rw [List.eq_nil_iff_forall_not_mem]
  intro r hr
  obtain ⟨lo, hi, hm⟩ := mem_rowsOf.mp hr
  exact h _ _ _ hm

theorem rowsOf_node (g d : String) (k t : ℕ) (n : InputNode) : rowsOf (nodeLog g d k t n) =
    .adeq t g d :: (match n.storages with | [] => [] | st :: _ => [.stor t g d st.name]) := by
  unfold nodeLog
  rw [rowsOf_append, rowsOf_append, rowsOf_append]
  have h1 : rowsOf (lpNodeOf g d k t n).numVars = [] := rowsOf_nil (by intro r lo hi h; simp [LPNode.numVars] at h)
  have h2 : rowsOf (ObjectiveBuilder.addNode (lpNodeOf g d k t n)) = [] :=
    rowsOf_nil (by intro r lo hi h; simp [ObjectiveBuilder.addNode] at h)
  have h3 : rowsOf (AdequacyBuilder.addNode g d (lpNodeOf g d k t n) t) = [.adeq t g d] := by
    unfold AdequacyBuilder.addNode
    dsimp only
    rw [rowsOf_append, rowsOf_append, rowsOf_append, rowsOf_append]
    rw [rowsOf_nil (l := List.map _ _) (by intro r lo hi h; simp at h), rowsOf_nil (l := List.map _ _) (by intro r lo hi h; simp at h),
      rowsOf_nil (l := List.map _ _) (by intro r lo hi h; simp at h), rowsOf_nil (l := List.flatMap _ _) (by intro r lo hi h; simp at h)]
    rfl
  rw [h1, h2, h3]
  unfold storLog
  cases n.storages with
  | nil => rfl
  | cons st l =>
    dsimp only
    split_ifs <;> rfl

theorem rowsOf_conv (k t : ℕ) (c : Converter) : rowsOf (convLog k t c) = c.srcRatios.map fun q => .mix t c.name q.1 := by
  unfold convLog
  rw [rowsOf_append, rowsOf_append, rowsOf_append]
  have h1 : rowsOf (convVars k t c) = [] := rowsOf_nil (by
    intro r lo hi h
    simp only [convVars, List.mem_append, List.mem_map, List.mem_singleton, reduceCtorEq, or_false] at h
    obtain ⟨_, _, h⟩ := h
    rcases srcVar_eq h with ⟨_, h⟩ | ⟨_, h⟩ <;> cases h)
  have h2 : rowsOf (convAdeq t c) = [] := rowsOf_nil (by intro r lo hi h; simp [convAdeq] at h)
  rw [h1, h2]
  unfold convMix
  rw [rowsOf_flatMap, List.map_eq_flatMap]
  simp [rowsOf]

theorem rowsOf_full (s : Study) (k : ℕ) : rowsOf (fullLog s k) = (List.range s.horizon).flatMap fun t =>
    (s.networks.flatMap fun p => p.2.nodes.flatMap fun q =>
      (RowId.adeq t p.1 q.1 :: (match q.2.storages with | [] => [] | st :: _ => [.stor t p.1 q.1 st.name]))) ++
    s.converters.flatMap fun p => p.2.srcRatios.map fun q => .mix t p.2.name q.1 := by
  unfold fullLog
  have h0 : rowsOf (importLog s) = [] := rowsOf_nil (by
    intro r lo hi h
    obtain ⟨_, _, _, _, e⟩ := mem_importLog h
    cases e)
  rw [rowsOf_append, h0, List.append_nil, rowsOf_flatMap]
  congr 1
  funext t
  unfold timeLog
  rw [rowsOf_append, rowsOf_flatMap, rowsOf_flatMap]
  simp only [rowsOf_flatMap, rowsOf_node, rowsOf_conv]

/-- the prices given by multipliers of the rows; only the first storage of a node has rows -/
def pricesOf (s : Study) (y : RowId → ℚ) : Prices where
  node g d t := y (.adeq t g d)
  stored g d i t := if i = 0 then -y (.stor t g d ((inNode s g d).storages.head?.elim "" (·.name))) else 0
  used c p t := y (.mix t c [p.1, p.2])

theorem sum_rows (hi : StudyInv s) (hself : NoSelfLink s) (y : RowId → ℚ) (x : Var → ℚ) :
    ((rowsOf (fullLog s k)).map fun r => y r * value (coefs (fullLog s k) r) x).sum = rows s k (pricesOf s y) (ofVars x) := by
  show sumL (rowsOf (fullLog s k)) _ = _
  rw [rowsOf_full, sumL_flatMap]
  unfold rows
  apply sumL_congr
  intro t ht
  have ht := List.mem_range.mp ht
  rw [sumL_append, sumL_flatMap, sumL_flatMap]
  congr 1
  · unfold sumN
    apply sumL_congr
    rintro ⟨g, net⟩ hg
    dsimp only
    rw [sumL_flatMap]
    apply sumL_congr
    rintro ⟨d, n⟩ hd
    dsimp only
    have hn : HasNode s g d n := ⟨net, hg, hd⟩
    have hs0 : selfFlow (ofVars x) g d n t = 0 := by
      rw [selfFlow, sumI_eq]
      apply sumL_eq_zero
      rintro ⟨l, i⟩ hl
      rw [if_neg (hself g d n hn l (mem_of_mem_zipIdx hl))]
    have hin := inNode_eq hi hn
    unfold nodeRows
    cases hst : n.storages with
    | nil =>
      simp only [sumL, List.map_cons, List.map_nil, List.sum_cons, List.sum_nil, add_zero]
      rw [value_adeq hi hn ht, hs0]
      simp [sumI, pricesOf]
    | cons st l =>
      simp only [sumL, List.map_cons, List.map_nil, List.sum_cons, List.sum_nil, add_zero]
      rw [value_adeq hi hn ht, hs0, value_stor hi hg hd (by rw [hst]; rfl) ht]
      rw [sumI_pick (a := st) (i := 0) rfl (by
        intro b j hj
        simp [pricesOf, hj])]
      simp only [pricesOf, hin, hst, if_true, List.head?_cons, Option.elim, capBefore, ofVars]
      ring
  · apply sumL_congr
    rintro p hp
    rw [sumL_map]
    unfold convRows
    apply sumL_congr
    intro q hq
    obtain ⟨g, d, n, e, hn⟩ := (hi.convs p hp).sources q.1 (List.mem_map.mpr ⟨q, hq, rfl⟩)
    rw [(hi.convs p hp).name, value_mix hi hp hq ht]
    simp only [e, srcPair, pricesOf, ofVars]

/-! ### One flow at a time -/

/-- one variable at 1, the others at 0 -/
def unit (v : Var) : Var → ℚ := fun w => if w = v then 1 else 0

theorem sum_unit {l : List Var} (hl : l.Nodup) {v : Var} (hv : v ∈ l) (f : Var → ℚ) :
    (l.map fun w => f w * unit v w).sum = f v := by
  have := sum_single_var hl hv 1 f
  rw [one_mul] at this
  rw [← this]
  congr 1
  apply List.map_congr_left
  intro w _
  unfold unit
  ring

theorem reds_node {D : Dispatch} (hi : StudyInv s) {g d : String} {n : InputNode} (hn : HasNode s g d n) {t : ℕ}
    (ht : t < s.horizon) (h1 : ∀ t' g' d' n', ¬ (t' = t ∧ g' = g ∧ d' = d) → nodeRed s k P D t' g' d' n' = 0)
    (h2 : ∀ t' p, convRed k P D t' p = 0) : reds s k P D = nodeRed s k P D t g d n := by
  have := sumL_bump (f := fun t => sumN s (nodeRed s k P D t) + sumL s.converters (convRed k P D t)) (g := fun _ => 0)
    List.nodup_range (a := t) (List.mem_range.mpr ht) (e := nodeRed s k P D t g d n) (by
      rw [sumN_pick hi hn fun g' d' n' _ h => h1 t g' d' n' fun e => h e.2, sumL_eq_zero fun p _ => h2 t p, add_zero, zero_add])
    (by
      intro t' _ hne
      rw [sumL_eq_zero fun p _ => h2 t' p, add_zero, sumN_congr fun g' d' n' _ => h1 t' g' d' n' fun e => hne e.1, sumN_zero])
  unfold reds
  rw [this, sumL_zero, zero_add]

theorem reds_conv {D : Dispatch} (hi : StudyInv s) {p : String × Converter} (hp : p ∈ s.converters) {t : ℕ}
    (ht : t < s.horizon) (h1 : ∀ t' g' d' n', nodeRed s k P D t' g' d' n' = 0)
    (h2 : ∀ t' p', p' ∈ s.converters → ¬ (t' = t ∧ p'.1 = p.1) → convRed k P D t' p' = 0) :
    reds s k P D = convRed k P D t p := by
  have := sumL_bump (f := fun t => sumN s (nodeRed s k P D t) + sumL s.converters (convRed k P D t)) (g := fun _ => 0)
    List.nodup_range (a := t) (List.mem_range.mpr ht) (e := convRed k P D t p) (by
      rw [sumN_congr fun g' d' n' _ => h1 t g' d' n', sumN_zero, zero_add, zero_add]
      have := sumL_bump (f := convRed k P D t) (g := fun _ => 0) hi.names.converters.of_map hp (e := convRed k P D t p) (by simp)
        (by
          intro p' hp' hne
          apply h2 _ _ hp'
          rintro ⟨_, e⟩
          exact hne (List.inj_on_of_nodup_map hi.names.converters hp' hp e))
      rw [this, sumL_zero, zero_add])
    (by
      intro t' _ hne
      rw [sumN_congr fun g' d' n' _ => h1 t' g' d' n', sumN_zero, zero_add]
      exact sumL_eq_zero fun p' hp' => h2 t' p' hp' fun e => hne e.1)
  unfold reds
  rw [this, sumL_zero, zero_add]

theorem convRed_zero {D : Dispatch} (h1 : ∀ c t, D.convDest c t = 0) (h2 : ∀ c q t, D.convSrc c q t = 0) (t : ℕ)
    (p : String × Converter) : convRed k P D t p = 0 := by
  unfold convRed
  simp only [h1, h2, mul_zero, sumL_zero, add_zero]

section
variable (hi : StudyInv s) {g d : String} {n : InputNode} (hn : HasNode s g d n) {t : ℕ} (ht : t < s.horizon) {i : ℕ}
include hi hn ht

theorem red_lol {c : Consumption} (hc : n.consumptions[i]? = some c) :
    reds s k P (ofVars (unit (.lol t g d i))) = val c.cost k t - P.node g d t := by
  rw [reds_node hi hn ht]
  · simp only [nodeRed, ofVars, unit, reduceCtorEq, if_false, mul_zero, sumI_zero, add_zero]
    rw [sumI_pick hc]
    · simp
    · intro b j hj
      simp [hj]
  · intro t' g' d' n' h
    simp only [nodeRed, ofVars, unit, reduceCtorEq, if_false, mul_zero, sumI_zero, add_zero, Var.lol.injEq]
    rw [sumI_eq]
    apply sumL_eq_zero
    intro p _
    rw [if_neg (by tauto), mul_zero]
  · exact convRed_zero (by simp [ofVars, unit]) (by simp [ofVars, unit])

theorem red_prod {c : Production} (hc : n.productions[i]? = some c) :
    reds s k P (ofVars (unit (.prod t g d i))) = val c.cost k t - P.node g d t := by
  rw [reds_node hi hn ht]
  · simp only [nodeRed, ofVars, unit, reduceCtorEq, if_false, mul_zero, sumI_zero, add_zero, zero_add]
    rw [sumI_pick hc]
    · simp
    · intro b j hj
      simp [hj]
  · intro t' g' d' n' h
    simp only [nodeRed, ofVars, unit, reduceCtorEq, if_false, mul_zero, sumI_zero, add_zero, zero_add, Var.prod.injEq]
    rw [sumI_eq]
    apply sumL_eq_zero
    intro p _
    rw [if_neg (by tauto), mul_zero]
  · exact convRed_zero (by simp [ofVars, unit]) (by simp [ofVars, unit])

theorem red_link {c : Link} (hc : n.links[i]? = some c) :
    reds s k P (ofVars (unit (.link t g d i))) = val c.cost k t + P.node g d t - P.node g c.dest t := by
  rw [reds_node hi hn ht]
  · simp only [nodeRed, ofVars, unit, reduceCtorEq, if_false, mul_zero, sumI_zero, add_zero, zero_add]
    rw [sumI_pick hc]
    · simp
    · intro b j hj
      simp [hj]
  · intro t' g' d' n' h
    simp only [nodeRed, ofVars, unit, reduceCtorEq, if_false, mul_zero, sumI_zero, add_zero, zero_add, Var.link.injEq]
    rw [sumI_eq]
    apply sumL_eq_zero
    intro p _
    rw [if_neg (by tauto), mul_zero]
  · exact convRed_zero (by simp [ofVars, unit]) (by simp [ofVars, unit])

theorem red_cap {c : Storage} (hc : n.storages[i]? = some c) :
    reds s k P (ofVars (unit (.cap t g d i))) = val c.cost k t + P.stored g d i t - P.storedNext s.horizon g d i t := by
  rw [reds_node hi hn ht]
  · simp only [nodeRed, ofVars, unit, reduceCtorEq, if_false, mul_zero, sumI_zero, add_zero, zero_add]
    rw [sumI_pick hc]
    · simp
    · intro b j hj
      simp [hj]
  · intro t' g' d' n' h
    simp only [nodeRed, ofVars, unit, reduceCtorEq, if_false, mul_zero, sumI_zero, add_zero, zero_add, Var.cap.injEq]
    rw [sumI_eq]
    apply sumL_eq_zero
    intro p _
    rw [if_neg (by tauto), mul_zero]
  · exact convRed_zero (by simp [ofVars, unit]) (by simp [ofVars, unit])

theorem red_fin {c : Storage} (hc : n.storages[i]? = some c) :
    reds s k P (ofVars (unit (.fin t g d i))) = P.node g d t - val c.eff k t * P.stored g d i t := by
  rw [reds_node hi hn ht]
  · simp only [nodeRed, ofVars, unit, reduceCtorEq, if_false, mul_zero, sumI_zero, add_zero, zero_add]
    rw [sumI_pick hc]
    · simp
    · intro b j hj
      simp [hj]
  · intro t' g' d' n' h
    simp only [nodeRed, ofVars, unit, reduceCtorEq, if_false, mul_zero, sumI_zero, add_zero, zero_add, Var.fin.injEq]
    rw [sumI_eq]
    apply sumL_eq_zero
    intro p _
    rw [if_neg (by tauto), mul_zero]
  · exact convRed_zero (by simp [ofVars, unit]) (by simp [ofVars, unit])

theorem red_fout {c : Storage} (hc : n.storages[i]? = some c) :
    reds s k P (ofVars (unit (.fout t g d i))) = P.stored g d i t - P.node g d t := by
  rw [reds_node hi hn ht]
  · simp only [nodeRed, ofVars, unit, reduceCtorEq, if_false, mul_zero, sumI_zero, add_zero, zero_add]
    rw [sumI_pick hc]
    · simp
    · intro b j hj
      simp [hj]
  · intro t' g' d' n' h
    simp only [nodeRed, ofVars, unit, reduceCtorEq, if_false, mul_zero, sumI_zero, add_zero, zero_add, Var.fout.injEq]
    rw [sumI_eq]
    apply sumL_eq_zero
    intro p _
    rw [if_neg (by tauto), mul_zero]
  · exact convRed_zero (by simp [ofVars, unit]) (by simp [ofVars, unit])

end

theorem red_dest (hi : StudyInv s) {p : String × Converter} (hp : p ∈ s.converters) {t : ℕ} (ht : t < s.horizon) :
    reds s k P (ofVars (unit (.convDest t p.1))) = fval p.2.cost k t +
      (sumL p.2.srcRatios fun q => P.used p.1 (srcPair q.1) t) - P.node p.2.destNetwork p.2.destNode t := by
  rw [reds_conv hi hp ht]
  · simp [convRed, ofVars, unit, sumL_zero]
  · intro t' g' d' n'
    simp only [nodeRed, ofVars, unit, reduceCtorEq, if_false, mul_zero, sumI_zero, add_zero]
  · intro t' p' _ h
    simp only [convRed, ofVars, unit, reduceCtorEq, if_false, mul_zero, sumL_zero, add_zero, Var.convDest.injEq, if_neg h]

theorem red_src (hi : StudyInv s) {p : String × Converter} (hp : p ∈ s.converters) {g d : String} {r : NumVal}
    (hr : ([g, d], r) ∈ p.2.srcRatios) {t : ℕ} (ht : t < s.horizon) :
    reds s k P (ofVars (unit (.convSrc t p.1 [g, d]))) = P.node g d t - val r k t * P.used p.1 (g, d) t := by
  rw [reds_conv hi hp ht]
  · simp only [convRed, ofVars, unit, reduceCtorEq, if_false, mul_zero, zero_add]
    have := sumL_bump (f := fun q => (P.node (srcPair q.1).1 (srcPair q.1).2 t - val q.2 k t * P.used p.1 (srcPair q.1) t) *
        if Var.convSrc t p.1 [(srcPair q.1).1, (srcPair q.1).2] = Var.convSrc t p.1 [g, d] then 1 else 0) (g := fun _ => 0)
      (hi.names.sources p hp).of_map hr (e := P.node g d t - val r k t * P.used p.1 (g, d) t) (by simp [srcPair]) (by
        intro q hq hne
        rw [if_neg, mul_zero]
        intro e
        simp only [Var.convSrc.injEq, List.cons.injEq, and_true, true_and] at e
        obtain ⟨g', d', n', e', _⟩ := (hi.convs p hp).sources q.1 (List.mem_map.mpr ⟨q, hq, rfl⟩)
        rw [e'] at e
        simp only [srcPair] at e
        rw [e.1, e.2] at e'
        exact hne (List.inj_on_of_nodup_map (hi.names.sources p hp) hq hr e'))
    rw [this, sumL_zero, zero_add]
  · intro t' g' d' n'
    simp only [nodeRed, ofVars, unit, reduceCtorEq, if_false, mul_zero, sumI_zero, add_zero]
  · intro t' p' _ h
    simp only [convRed, ofVars, unit, reduceCtorEq, if_false, mul_zero, zero_add, Var.convSrc.injEq]
    apply sumL_eq_zero
    intro q _
    rw [if_neg (by tauto), mul_zero]

/-! ### Limits of the variables -/

/-- upper limit of a variable -/
def topOf (s : Study) (k : ℕ) : Var → ℚ
  | .lol t g d i => (inNode s g d).consumptions[i]?.elim 0 fun c => val c.quantity k t
  | .prod t g d i => (inNode s g d).productions[i]?.elim 0 fun c => val c.quantity k t
  | .cap t g d i => (inNode s g d).storages[i]?.elim 0 fun c => val c.capacity k t
  | .fin t g d i => (inNode s g d).storages[i]?.elim 0 fun c => val c.flowIn k t
  | .fout t g d i => (inNode s g d).storages[i]?.elim 0 fun c => val c.flowOut k t
  | .link t g d i => (inNode s g d).links[i]?.elim 0 fun c => val c.quantity k t
  | .convSrc t c key => (s.converters.get? c).elim 0 fun c => (Dict.get? c.srcRatios key).elim 0 fun r => fval c.max k t / val r k t
  | .convDest t c => (s.converters.get? c).elim 0 fun c => fval c.max k t

theorem numVarInf_low {v : Var} {lb : ℚ} {pos : Bool} (hm : Cmd.numVarInf v lb pos ∈ fullLog s k) : lb = 0 := by
  rcases mem_fullLog hm with ⟨t, ht, g, d, n, hn, hm⟩ | ⟨t, ht, p, hp, hm⟩ | ⟨_, _, _, _, e⟩
  · exact (nodeLog_numVarInf hm).elim
  · obtain ⟨q, hq, _, h, _⟩ := convLog_numVarInf hm
    exact h
  · cases e

theorem numVar_top (hi : StudyInv s) {v : Var} {lb ub : ℚ} (hm : Cmd.numVar v lb ub ∈ fullLog s k) :
    lb = 0 ∧ ub = topOf s k v := by
  rcases mem_fullLog hm with ⟨t, ht, g, d, n, hn, hm⟩ | ⟨t, ht, p, hp, hm⟩ | ⟨_, _, _, _, e⟩
  · have hm := nodeLog_numVar hm
    have hin := inNode_eq hi hn
    simp only [LPNode.numVars, lpNodeOf, List.mem_append, List.map_map, List.mem_map,
      List.flatMap_map, List.mem_flatMap, List.mem_cons, List.not_mem_nil, or_false] at hm
    rcases hm with ((⟨p, hp, e⟩ | ⟨p, hp, e⟩) | ⟨p, hp, (e | e | e)⟩) | ⟨p, hp, e⟩ <;> cases e <;>
      have hp := mem_zipIdx_iff.mp hp <;> simp [topOf, hin, hp]
  · have hname := (hi.convs p hp).name
    have hg := Dict.get?_of_mem (k := p.1) (v := p.2) hi.names.converters hp
    rcases convLog_numVar hm with ⟨q, hq, rfl, rfl, hz, rfl⟩ | ⟨rfl, rfl, rfl⟩
    · have hg' := Dict.get?_of_mem (k := q.1) (v := q.2) (hi.names.sources p hp) hq
      rw [hname]
      simp [topOf, hg, hg']
    · rw [hname]
      simp [topOf, hg]
  · cases e

section
variable {g d : String} {n : InputNode} (hn : HasNode s g d n) {t : ℕ} (ht : t < s.horizon) {i : ℕ}
include hn ht

theorem numVar_lol {c : Consumption} (hc : n.consumptions[i]? = some c) :
    Cmd.numVar (.lol t g d i) 0 (val c.quantity k t) ∈ fullLog s k := by
  refine mem_timeLog_node hn ht ?_
  refine List.mem_append_left _ (List.mem_append_left _ (List.mem_append_left _ ?_))
  simp only [LPNode.numVars, lpNodeOf, List.mem_append, List.map_map, List.mem_map]
  exact .inl (.inl (.inl ⟨(c, i), mem_zipIdx_iff.mpr hc, rfl⟩))

theorem numVar_prod {c : Production} (hc : n.productions[i]? = some c) :
    Cmd.numVar (.prod t g d i) 0 (val c.quantity k t) ∈ fullLog s k := by
  refine mem_timeLog_node hn ht ?_
  refine List.mem_append_left _ (List.mem_append_left _ (List.mem_append_left _ ?_))
  simp only [LPNode.numVars, lpNodeOf, List.mem_append, List.map_map, List.mem_map]
  exact .inl (.inl (.inr ⟨(c, i), mem_zipIdx_iff.mpr hc, rfl⟩))

theorem numVar_stor {c : Storage} (hc : n.storages[i]? = some c) {a : Cmd}
    (ha : a ∈ [Cmd.numVar (.cap t g d i) 0 (val c.capacity k t),
      .numVar (.fin t g d i) 0 (val c.flowIn k t), .numVar (.fout t g d i) 0 (val c.flowOut k t)]) : a ∈ fullLog s k := by
  refine mem_timeLog_node hn ht ?_
  refine List.mem_append_left _ (List.mem_append_left _ (List.mem_append_left _ ?_))
  simp only [LPNode.numVars, lpNodeOf, List.mem_append, List.flatMap_map, List.mem_flatMap]
  exact .inl (.inr ⟨(c, i), mem_zipIdx_iff.mpr hc, ha⟩)

theorem numVar_link {c : Link} (hc : n.links[i]? = some c) :
    Cmd.numVar (.link t g d i) 0 (val c.quantity k t) ∈ fullLog s k := by
  refine mem_timeLog_node hn ht ?_
  refine List.mem_append_left _ (List.mem_append_left _ (List.mem_append_left _ ?_))
  simp only [LPNode.numVars, lpNodeOf, List.mem_append, List.map_map, List.mem_map]
  exact .inr ⟨(c, i), mem_zipIdx_iff.mpr hc, rfl⟩

end

theorem numVar_ratio (hi : StudyInv s) {p : String × Converter} (hp : p ∈ s.converters) {g d : String} {r : NumVal}
    (hr : ([g, d], r) ∈ p.2.srcRatios) {t : ℕ} {lb ub : ℚ} (hm : Cmd.numVar (.convSrc t p.1 [g, d]) lb ub ∈ fullLog s k) :
    val r k t ≠ 0 := by
  rcases mem_fullLog hm with ⟨t', ht', g', d', n, hn, hm⟩ | ⟨t', ht', p', hp', hm⟩ | ⟨_, _, _, _, e⟩
  · have hm := nodeLog_numVar hm
    simp [LPNode.numVars, lpNodeOf] at hm
  · rcases convLog_numVar hm with ⟨q, hq, e, rfl, hz, rfl⟩ | ⟨e, _⟩
    · rw [(hi.convs p' hp').name] at e
      simp only [Var.convSrc.injEq] at e
      obtain ⟨rfl, e1, e2⟩ := e
      obtain rfl := List.inj_on_of_nodup_map hi.names.converters hp hp' e1
      have := List.inj_on_of_nodup_map (hi.names.sources p hp) hr hq e2
      rw [← this] at hz
      exact hz
    · cases e
  · cases e

theorem numVarInf_src (hi : StudyInv s) {p : String × Converter} (hp : p ∈ s.converters) {g d : String} {r : NumVal}
    (hr : ([g, d], r) ∈ p.2.srcRatios) {t : ℕ} (ht : t < s.horizon) (hz : val r k t = 0) :
    Cmd.numVarInf (.convSrc t p.1 [g, d]) 0 (decide (0 ≤ fval p.2.max k t)) ∈ fullLog s k := by
  refine mem_timeLog_conv hp ht ?_
  refine List.mem_append_left _ (List.mem_append_left _ (List.mem_append_left _ ?_))
  rw [← (hi.convs p hp).name]
  exact List.mem_append_left _ (List.mem_map.mpr ⟨_, hr, by dsimp only; unfold srcVar; rw [if_pos hz]⟩)

theorem numVar_src (hi : StudyInv s) {p : String × Converter} (hp : p ∈ s.converters) {g d : String} {r : NumVal}
    (hr : ([g, d], r) ∈ p.2.srcRatios) {t : ℕ} (ht : t < s.horizon) (hz : val r k t ≠ 0) :
    Cmd.numVar (.convSrc t p.1 [g, d]) 0 (fval p.2.max k t / val r k t) ∈ fullLog s k := by
  refine mem_timeLog_conv hp ht ?_
  refine List.mem_append_left _ (List.mem_append_left _ (List.mem_append_left _ ?_))
  rw [← (hi.convs p hp).name]
  exact List.mem_append_left _ (List.mem_map.mpr ⟨_, hr, by dsimp only; unfold srcVar; rw [if_neg hz]⟩)

theorem numVar_dest (hi : StudyInv s) {p : String × Converter} (hp : p ∈ s.converters) {t : ℕ} (ht : t < s.horizon) :
    Cmd.numVar (.convDest t p.1) 0 (fval p.2.max k t) ∈ fullLog s k := by
  refine mem_timeLog_conv hp ht ?_
  refine List.mem_append_left _ (List.mem_append_left _ (List.mem_append_left _ ?_))
  rw [← (hi.convs p hp).name]
  exact List.mem_append_right _ (by simp)

/-- an optimal answer comes with prices -/
theorem exists_prices (hi : StudyInv s) (hself : NoSelfLink s)
    (hdest : ∀ p ∈ s.converters, ∃ n, HasNode s p.2.destNetwork p.2.destNode n) {x : Var → ℚ}
    (ho : Cmd.Optimal (fullLog s k) x) : ∃ P, Equilibrium s k (ofVars x) P := by
  obtain ⟨y, red, hy, hr⟩ := exists_duals ho
  have hred : ∀ δ, ((varsOf (fullLog s k)).map fun v => red v * δ v).sum = reds s k (pricesOf s y) (ofVars δ) := by
    intro δ
    have h2 := hy δ
    rw [objective_eq hi, sum_rows hi hself, cost_eq_rows_reds (P := pricesOf s y) hi hdest] at h2
    linarith
  have low : ∀ v, 0 < red v → x v = 0 := by
    intro v h
    rcases (hr v).1 h with ⟨ub', hm'⟩ | ⟨pos, hm'⟩
    · exact (numVar_top hi hm').1
    · exact numVarInf_low hm'
  have key : ∀ v ub, Cmd.numVar v 0 ub ∈ fullLog s k → Best (reds s k (pricesOf s y) (ofVars (unit v))) (x v) ub := by
    intro v ub hm
    have h3 := hred (unit v)
    rw [sum_unit (varsOf_nodup _) (mem_varsOf_numVar hm)] at h3
    rw [← h3]
    constructor
    · exact low v
    · intro h
      obtain ⟨lb', hm'⟩ := (hr v).2 h
      rw [(numVar_top hi hm').2, (numVar_top hi hm).2]
  refine ⟨pricesOf s y, ⟨?_, ?_, ?_, ?_, ?_, ?_, ?_, ?_⟩⟩
  · intro g d n hn i c hc t ht
    rw [← red_lol hi hn ht hc]
    exact key _ _ (numVar_lol hn ht hc)
  · intro g d n hn i c hc t ht
    rw [← red_prod hi hn ht hc]
    exact key _ _ (numVar_prod hn ht hc)
  · intro g d n hn i c hc t ht
    rw [← red_link hi hn ht hc]
    exact key _ _ (numVar_link hn ht hc)
  · intro g d n hn i c hc t ht
    rw [← red_cap hi hn ht hc]
    exact key _ _ (numVar_stor hn ht hc (by simp))
  · intro g d n hn i c hc t ht
    rw [← red_fin hi hn ht hc]
    exact key _ _ (numVar_stor hn ht hc (by simp))
  · intro g d n hn i c hc t ht
    rw [← red_fout hi hn ht hc]
    exact key _ _ (numVar_stor hn ht hc (by simp))
  · intro p hp g d r hsrc t ht
    refine ⟨fun hz => ?_, fun hz => ?_⟩
    · rw [← red_src hi hp hsrc ht]
      exact key _ _ (numVar_src hi hp hsrc ht hz)
    · have h3 := hred (unit (.convSrc t p.1 [g, d]))
      rw [sum_unit (varsOf_nodup _) (mem_varsOf_numVarInf (numVarInf_src hi hp hsrc ht hz)), red_src hi hp hsrc ht, hz,
        zero_mul, sub_zero] at h3
      rw [← h3]
      refine ⟨?_, low _⟩
      by_contra hneg
      obtain ⟨lb', hm'⟩ := (hr _).2 (not_le.mp hneg)
      exact numVar_ratio hi hp hsrc hm' hz
  · intro p hp t ht
    rw [← red_dest hi hp ht]
    exact key _ _ (numVar_dest hi hp ht)

end Hadar
