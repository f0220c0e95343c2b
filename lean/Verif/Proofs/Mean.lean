import Verif.Proofs.Blend
import Verif.Proofs.Prices

/-!
# The mean of dispatches of several scenarios
-/

namespace Hadar

open Spec

section

variable {N : ℕ} {w : ℕ → ℚ}

theorem weighted_add (f g : ℕ → ℚ) : weighted N w (fun k => f k + g k) = weighted N w f + weighted N w g := by
  unfold weighted
  rw [← sumL_add]
  exact sumL_congr fun k _ => by ring

theorem weighted_sub (f g : ℕ → ℚ) : weighted N w (fun k => f k - g k) = weighted N w f - weighted N w g := by
  unfold weighted
  rw [← sumL_sub]
  exact sumL_congr fun k _ => by ring

theorem weighted_mul (c : ℚ) (f : ℕ → ℚ) : weighted N w (fun k => c * f k) = c * weighted N w f := by
  unfold weighted
  rw [← sumL_mul]
  exact sumL_congr fun k _ => by ring

theorem weighted_zero : weighted N w (fun _ => 0) = 0 := by
  unfold weighted
  exact sumL_eq_zero fun k _ => by ring

theorem weighted_congr {f g : ℕ → ℚ} (h : ∀ k < N, f k = g k) : weighted N w f = weighted N w g := by
  unfold weighted
  exact sumL_congr fun k hk => by rw [h k (by simpa using hk)]

theorem weighted_le (hw : Weights N w) {f g : ℕ → ℚ} (h : ∀ k < N, f k ≤ g k) : weighted N w f ≤ weighted N w g := by
  unfold weighted
  refine sumL_le fun k hk => ?_
  have hk : k < N := by simpa using hk
  exact mul_le_mul_of_nonneg_left (h k hk) (hw.nonneg k hk)

theorem weighted_const (hw : Weights N w) (c : ℚ) : weighted N w (fun _ => c) = c := by
  have := weighted_mul (N := N) (w := w) c (fun _ => 1)
  rw [hw.total, mul_one] at this
  simpa using this

theorem weighted_bound (hw : Weights N w) {f g : ℕ → ℚ} {z : ℚ} (h : ∀ k < N, 0 ≤ f k ∧ f k ≤ g k) (hz : weighted N w g ≤ z) :
    0 ≤ weighted N w f ∧ weighted N w f ≤ z := by
  refine ⟨?_, le_trans (weighted_le hw fun k hk => (h k hk).2) hz⟩
  have := weighted_le hw (f := fun _ => 0) (g := f) fun k hk => (h k hk).1
  rwa [weighted_zero] at this

theorem sumL_mean {α β : Type} {R : α → β → Prop} {l : List α} {l' : List β} (h : List.Forall₂ R l l') {f : ℕ → α → ℚ}
    {f' : β → ℚ} (hf : ∀ a ∈ l, ∀ b ∈ l', R a b → f' b = weighted N w fun k => f k a) :
    sumL l' f' = weighted N w fun k => sumL l (f k) := by
  have hcons : ∀ {δ : Type} (a : δ) (l : List δ) (h : δ → ℚ), sumL (a :: l) h = h a + sumL l h := by
    intros; simp [sumL]
  induction h with
  | nil => simp [sumL, weighted]
  | cons hab _ ih =>
    rw [hcons, hf _ (by simp) _ (by simp) hab, ih fun a ha b hb => hf a (by simp [ha]) b (by simp [hb]), ← weighted_add]
    exact weighted_congr fun k _ => (hcons _ _ _).symm

theorem sumI_mean {α β : Type} {R : α → β → Prop} {l : List α} {l' : List β} (h : List.Forall₂ R l l') {f : ℕ → α → ℕ → ℚ}
    {f' : β → ℕ → ℚ} (hf : ∀ i a b, l[i]? = some a → l'[i]? = some b → R a b → f' b i = weighted N w fun k => f k a i) :
    sumI l' f' = weighted N w fun k => sumI l (f k) := by
  simp only [sumI_eq]
  apply sumL_mean (forall₂_zipIdx h 0)
  rintro ⟨a, i⟩ ha ⟨b, j⟩ hb ⟨e, hab⟩
  dsimp only at e hab
  subst e
  exact hf i a b (mem_zipIdx_iff.mp ha) (mem_zipIdx_iff.mp hb) hab

end

variable {w : ℕ → ℚ} {s s' : Study} {k' : ℕ} {D : ℕ → Dispatch}

theorem imports_mean (hm : MeanScenario w s s' k') (g d : String) (t : ℕ) :
    imports s' (Dispatch.mean s.nbScn w D) g d t = weighted s.nbScn w fun k => imports s (D k) g d t := by
  unfold imports
  simp only [sumL_filter]
  apply sumL_mean (Alike.networks hm)
  rintro ⟨g1, net⟩ _ ⟨g2, net'⟩ _ ⟨e, hnet⟩
  dsimp only at e hnet ⊢
  subst e
  by_cases hg : g1 = g
  · simp only [hg, decide_true, if_true]
    apply sumL_mean hnet
    rintro ⟨d1, n⟩ _ ⟨d2, n'⟩ _ ⟨e, hN⟩
    dsimp only at e hN ⊢
    subst e
    apply sumI_mean hN.links
    rintro i l l' - - ⟨e, -⟩
    rw [e]
    split_ifs
    · rfl
    · exact weighted_zero.symm
  · simp only [hg, decide_false, Bool.false_eq_true, if_false]
    exact weighted_zero.symm

theorem from_mean (hm : MeanScenario w s s' k') (g d : String) (t : ℕ) :
    fromConverters s' (Dispatch.mean s.nbScn w D) g d t = weighted s.nbScn w fun k => fromConverters s (D k) g d t := by
  unfold fromConverters
  apply sumL_mean (Alike.converters hm)
  rintro p _ p' _ ⟨e, hC⟩
  rw [hC.destNetwork, hC.destNode, e]
  split_ifs
  · rfl
  · exact weighted_zero.symm

theorem to_mean (hm : MeanScenario w s s' k') (g d : String) (t : ℕ) :
    toConverters s' (Dispatch.mean s.nbScn w D) g d t = weighted s.nbScn w fun k => toConverters s (D k) g d t := by
  unfold toConverters
  apply sumL_mean (Alike.converters hm)
  rintro p _ p' _ ⟨e, hC⟩
  rw [e]
  apply sumL_mean hC.sources
  rintro q _ q' _ ⟨e', -⟩
  rw [e']
  split_ifs
  · rfl
  · exact weighted_zero.symm

/-- the mean of feasible dispatches is feasible for the mean scenario -/
theorem Spec.MeanScenario.codeFeasible (hw : Weights s.nbScn w) (hm : MeanScenario w s s' k') (hr : RatiosNonneg s' k')
    (hf : ∀ k < s.nbScn, CodeFeasible s k (D k)) : CodeFeasible s' k' (Dispatch.mean s.nbScn w D) := by
  have hh : s.horizon = s'.horizon := Alike.horizon hm
  refine ⟨⟨?_, ?_, ?_, ?_, ?_, ?_⟩, ?_, ?_, ?_⟩
  · intro g d n' hn' i c' hc' t ht
    obtain ⟨n, hn, hN⟩ := Alike.node hm hn'
    obtain ⟨c, hc, -, h2⟩ := forall₂_get_right hN.consumptions hc'
    exact weighted_bound hw (fun k hk => (hf k hk).bounds.consumptions g d n hn i c hc t (hh ▸ ht)) (h2 t (hh ▸ ht)).ge
  · intro g d n' hn' i c' hc' t ht
    obtain ⟨n, hn, hN⟩ := Alike.node hm hn'
    obtain ⟨c, hc, -, h2⟩ := forall₂_get_right hN.productions hc'
    exact weighted_bound hw (fun k hk => (hf k hk).bounds.productions g d n hn i c hc t (hh ▸ ht)) (h2 t (hh ▸ ht))
  · intro g d n' hn' i c' hc' t ht
    obtain ⟨n, hn, hN⟩ := Alike.node hm hn'
    obtain ⟨c, hc, -, h1, h2, h3, -⟩ := forall₂_get_right hN.storages hc'
    have hb := fun k hk => (hf k hk).bounds.storages g d n hn i c hc t (hh ▸ ht)
    exact ⟨weighted_bound hw (fun k hk => (hb k hk).1) (h1 t (hh ▸ ht)),
      weighted_bound hw (fun k hk => (hb k hk).2.1) (h2 t (hh ▸ ht)),
      weighted_bound hw (fun k hk => (hb k hk).2.2) (h3 t (hh ▸ ht))⟩
  · intro g d n' hn' i c' hc' t ht
    obtain ⟨n, hn, hN⟩ := Alike.node hm hn'
    obtain ⟨c, hc, -, -, h2⟩ := forall₂_get_right hN.links hc'
    exact weighted_bound hw (fun k hk => (hf k hk).bounds.links g d n hn i c hc t (hh ▸ ht)) (h2 t (hh ▸ ht))
  · intro p' hp' g d r' hq' t ht
    obtain ⟨p, hp, e, hC⟩ := Alike.conv hm hp'
    obtain ⟨⟨key, r⟩, hq, e', hs⟩ := forall₂_mem_right hC.sources hq'
    dsimp only at e' hs
    subst e'
    have ht' : t < s.horizon := hh ▸ ht
    have hb := fun k hk => (hf k hk).bounds.convSrc p hp g d r hq t ht'
    have hpos := hr p' hp' _ hq' t ht
    dsimp only at hpos
    have h0 := weighted_le hw (f := fun _ => 0) fun k hk => (hb k hk).1
    rw [weighted_zero] at h0
    rw [← e]
    refine ⟨h0, fun hz => ?_⟩
    have h1 := weighted_le hw (f := fun k => (D k).convSrc p.1 (g, d) t) (g := fun k => 1 / val r' k' t * fval p.2.max k t) fun k hk => by
      have := (hb k hk).2 (by rw [hs t ht' k hk]; exact hz)
      rw [hs t ht' k hk] at this
      rwa [one_div_mul_eq_div]
    rw [weighted_mul, one_div_mul_eq_div] at h1
    exact le_trans h1 (div_le_div_of_nonneg_right (hC.max t ht') hpos)
  · intro p' hp' t ht
    obtain ⟨p, hp, e, hC⟩ := Alike.conv hm hp'
    rw [← e]
    exact weighted_bound hw (fun k hk => (hf k hk).bounds.convDest p hp t (hh ▸ ht)) (hC.max t (hh ▸ ht))
  · intro g d n' hn' t ht
    obtain ⟨n, hn, hN⟩ := Alike.node hm hn'
    have ht' : t < s.horizon := hh ▸ ht
    have hin : incoming s' (Dispatch.mean s.nbScn w D) g d n' t = weighted s.nbScn w fun k => incoming s (D k) g d n t := by
      unfold incoming
      rw [imports_mean hm, from_mean hm,
        sumI_mean hN.productions (N := s.nbScn) (w := w) (f := fun k _ i => (D k).prod g d i t)
          (f' := fun _ i => (Dispatch.mean s.nbScn w D).prod g d i t) (fun _ _ _ _ _ _ => rfl),
        sumI_mean hN.storages (N := s.nbScn) (w := w) (f := fun k _ i => (D k).fout g d i t)
          (f' := fun _ i => (Dispatch.mean s.nbScn w D).fout g d i t) (fun _ _ _ _ _ _ => rfl),
        ← weighted_add, ← weighted_add, ← weighted_add]
    have hout : outgoing s' k' (Dispatch.mean s.nbScn w D) g d n' t =
        weighted s.nbScn w fun k => outgoing s k (D k) g d n t := by
      unfold outgoing
      rw [to_mean hm,
        sumI_mean hN.consumptions (N := s.nbScn) (w := w) (f := fun k c i => val c.quantity k t - (D k).lol g d i t)
          (f' := fun c i => val c.quantity k' t - (Dispatch.mean s.nbScn w D).lol g d i t) (by
            rintro i c c' - - ⟨-, h⟩
            rw [h t ht', weighted_sub]
            rfl),
        sumI_mean hN.storages (N := s.nbScn) (w := w) (f := fun k _ i => (D k).fin g d i t)
          (f' := fun _ i => (Dispatch.mean s.nbScn w D).fin g d i t) (fun _ _ _ _ _ _ => rfl),
        sumI_mean hN.links (N := s.nbScn) (w := w) (f := fun k _ i => (D k).link g d i t)
          (f' := fun _ i => (Dispatch.mean s.nbScn w D).link g d i t) (fun _ _ _ _ _ _ => rfl),
        ← weighted_add, ← weighted_add, ← weighted_add]
    have hself : selfFlow (Dispatch.mean s.nbScn w D) g d n' t = weighted s.nbScn w fun k => selfFlow (D k) g d n t := by
      unfold selfFlow
      apply sumI_mean hN.links
      rintro i l l' - - ⟨e, -⟩
      rw [e]
      split_ifs
      · rfl
      · exact weighted_zero.symm
    rw [hin, hout, hself, ← weighted_add]
    exact weighted_congr fun k hk => (hf k hk).balance g d n hn t ht'
  · intro g d n' hn' c' hc' t ht
    obtain ⟨n, hn, hN⟩ := Alike.node hm hn'
    have ht' : t < s.horizon := hh ▸ ht
    rw [List.head?_eq_getElem?] at hc'
    obtain ⟨c, hc, -, -, -, -, h5, h6⟩ := forall₂_get_right hN.storages hc'
    have e := fun k hk => (hf k hk).storages g d n hn c (by rw [List.head?_eq_getElem?]; exact hc) t ht'
    have key : (Dispatch.mean s.nbScn w D).cap g d 0 t = weighted s.nbScn w fun k =>
        levelBefore (D k) g d 0 c.initCapacity t + val c'.eff k' t * (D k).fin g d 0 t - (D k).fout g d 0 t := by
      apply weighted_congr
      intro k hk
      have := e k hk
      unfold Evolves at this
      rw [h6 t ht' k hk] at this
      exact this
    unfold Evolves
    rw [key, weighted_sub, weighted_add]
    have h7 : (weighted s.nbScn w fun k => levelBefore (D k) g d 0 c.initCapacity t) =
        levelBefore (Dispatch.mean s.nbScn w D) g d 0 c'.initCapacity t := by
      cases t with
      | zero => simp only [levelBefore]; rw [weighted_const hw, h5]
      | succ t => rfl
    have h8 : (weighted s.nbScn w fun k => val c'.eff k' t * (D k).fin g d 0 t) =
        val c'.eff k' t * (Dispatch.mean s.nbScn w D).fin g d 0 t := weighted_mul _ _
    rw [h7, h8]
    rfl
  · intro p' hp' g d r' hq' t ht
    obtain ⟨p, hp, e, hC⟩ := Alike.conv hm hp'
    obtain ⟨⟨key, r⟩, hq, e', hs⟩ := forall₂_mem_right hC.sources hq'
    dsimp only at e' hs
    subst e'
    have ht' : t < s.horizon := hh ▸ ht
    rw [← e, mul_comm]
    simp only [Dispatch.mean]
    rw [← weighted_mul]
    apply weighted_congr
    intro k hk
    have := (hf k hk).ratios p hp g d r hq t ht'
    rw [hs t ht' k hk] at this
    rw [mul_comm]
    exact this

/-- the cost of the mean of dispatches -/
theorem mean_cost (hm : MeanScenario w s s' k') :
    cost s' k' (Dispatch.mean s.nbScn w D) = weighted s.nbScn w fun k => cost s k (D k) := by
  have hh : s.horizon = s'.horizon := Alike.horizon hm
  unfold cost
  rw [← hh]
  apply sumL_mean (R := Eq) (List.forall₂_refl (List.range s.horizon))
  rintro t ht _ - rfl
  have ht : t < s.horizon := by simpa using ht
  rw [weighted_add]
  have term : ∀ {v v' : NumVal} {f : ℕ → ℚ}, FixSeries s.horizon s.nbScn k' v v' →
      val v' k' t * weighted s.nbScn w f = weighted s.nbScn w fun k => val v k t * f k := by
    intro v v' f h
    rw [← weighted_mul]
    exact weighted_congr fun k hk => by rw [h t ht k hk]
  refine congrArg₂ (· + ·) ?_ ?_
  · apply sumL_mean (Alike.networks hm)
    rintro ⟨g, net⟩ _ ⟨g', net'⟩ _ ⟨e, hnet⟩
    dsimp only at e hnet ⊢
    subst e
    apply sumL_mean hnet
    rintro ⟨d, n⟩ _ ⟨d', n'⟩ _ ⟨e, hN⟩
    dsimp only at e hN ⊢
    subst e
    unfold nodeCost
    rw [sumI_mean hN.consumptions (N := s.nbScn) (w := w) (f := fun k c i => val c.cost k t * (D k).lol g d i t)
          (f' := fun c i => val c.cost k' t * (Dispatch.mean s.nbScn w D).lol g d i t) (by
          rintro i c c' - - ⟨h, -⟩
          exact term h),
      sumI_mean hN.productions (N := s.nbScn) (w := w) (f := fun k c i => val c.cost k t * (D k).prod g d i t)
          (f' := fun c i => val c.cost k' t * (Dispatch.mean s.nbScn w D).prod g d i t) (by
          rintro i c c' - - ⟨h, -⟩
          exact term h),
      sumI_mean hN.storages (N := s.nbScn) (w := w) (f := fun k c i => val c.cost k t * (D k).cap g d i t)
          (f' := fun c i => val c.cost k' t * (Dispatch.mean s.nbScn w D).cap g d i t) (by
          rintro i c c' - - ⟨h, -⟩
          exact term h),
      sumI_mean hN.links (N := s.nbScn) (w := w) (f := fun k c i => val c.cost k t * (D k).link g d i t)
          (f' := fun c i => val c.cost k' t * (Dispatch.mean s.nbScn w D).link g d i t) (by
          rintro i c c' - - ⟨-, h, -⟩
          exact term h),
      ← weighted_add, ← weighted_add, ← weighted_add]
  · apply sumL_mean (Alike.converters hm)
    rintro p _ p' _ ⟨e, hC⟩
    rw [e]
    simp only [Dispatch.mean]
    rw [← weighted_mul]
    exact weighted_congr fun k hk => by rw [hC.cost t ht k hk]

instance (h N : ℕ) (w : ℕ → ℚ) (k' : ℕ) (v v' : NumVal) : Decidable (MeanSeries h N w k' v v') := by
  unfold MeanSeries; infer_instance

instance (h N : ℕ) (w : ℕ → ℚ) (k' : ℕ) (v v' : NumVal) : Decidable (MeanLe h N w k' v v') := by
  unfold MeanLe; infer_instance

instance (h N : ℕ) (k' : ℕ) (v v' : NumVal) : Decidable (FixSeries h N k' v v') := by
  unfold FixSeries; infer_instance

instance (h N : ℕ) (w : ℕ → ℚ) (k' : ℕ) (n n' : InputNode) : Decidable (MeanNode h N w k' n n') :=
  decidable_of_iff (_ ∧ _ ∧ _ ∧ _) ⟨fun ⟨a, b, c, d⟩ => ⟨a, b, c, d⟩, fun ⟨a, b, c, d⟩ => ⟨a, b, c, d⟩⟩

instance (h N : ℕ) (w : ℕ → ℚ) (k' : ℕ) (c c' : Converter) : Decidable (MeanConverter h N w k' c c') :=
  decidable_of_iff (_ ∧ _ ∧ _ ∧ _ ∧ _) ⟨fun ⟨a, b, c, d, e⟩ => ⟨a, b, c, d, e⟩, fun ⟨a, b, c, d, e⟩ => ⟨a, b, c, d, e⟩⟩

end Hadar
