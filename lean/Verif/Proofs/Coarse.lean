import Verif.Spec.Coarse
import Verif.Proofs.Cut
import Verif.Proofs.Groups
import Verif.Proofs.Order
import Verif.Proofs.Tax

/-! # Helper lemmas on studies whose nodes are put together -/

namespace Hadar

open Spec

variable {α : Type} {place : Place} {s s' : Study} {k k' : ℕ} {L : Layout} {D : Dispatch}

theorem sumN_scale (s : Study) (c : ℚ) (f : String → String → InputNode → ℚ) : (sumN s fun g d n => c * f g d n) = c * sumN s f := by
  unfold sumN
  simp only [sumL_mul]

theorem sumN_swap (s s' : Study) (f : String → String → InputNode → String → String → InputNode → ℚ) :
    (sumN s fun g d n => sumN s' fun g' d' n' => f g d n g' d' n') = sumN s' fun g' d' n' => sumN s fun g d n => f g d n g' d' n' := by
  simp only [sumN_nodesOf]
  exact sumL_swap _ _ _

section

variable {el : InputNode → List α} {keep : String → String → α → Bool} {pos : Positions} {x : String × String} {j : ℕ}

theorem gathered_sumN (f : String → String → α → ℕ → ℚ) : gathered place s el keep pos x j f =
    sumN s fun g d n => if place (g, d) = x then sumI (el n) fun a i => if keep g d a = true ∧ pos g d i = j then f g d a i else 0 else 0 := rfl

theorem gathered_le {f f' : String → String → α → ℕ → ℚ} (h : ∀ g d n, HasNode s g d n → ∀ i a, (el n)[i]? = some a →
    f g d a i ≤ f' g d a i) : gathered place s el keep pos x j f ≤ gathered place s el keep pos x j f' := by
  rw [gathered_sumN, gathered_sumN]
  refine sumN_le fun g d n hn => ?_
  split_ifs
  · refine sumI_le fun a i ha => ?_
    split_ifs
    · exact h g d n hn i a ha
    · exact le_refl _
  · exact le_refl _

theorem gathered_congr {f f' : String → String → α → ℕ → ℚ} (h : ∀ g d n, HasNode s g d n → place (g, d) = x → ∀ i a,
    (el n)[i]? = some a → pos g d i = j → f g d a i = f' g d a i) :
    gathered place s el keep pos x j f = gathered place s el keep pos x j f' := by
  rw [gathered_sumN, gathered_sumN]
  refine sumN_congr fun g d n hn => ?_
  split_ifs with hx
  · refine sumI_congr fun a i ha => ?_
    split_ifs with hj
    · exact h g d n hn hx i a ha hj.2
    · rfl
  · rfl

theorem gathered_zero : (gathered place s el keep pos x j fun _ _ _ _ => 0) = 0 := by
  rw [gathered_sumN]
  have : (sumN s fun g d n => if place (g, d) = x then sumI (el n) fun a i => if keep g d a = true ∧ pos g d i = j then (0 : ℚ) else 0
      else 0) = sumN s fun _ _ _ => 0 := by
    refine sumN_congr fun g d n _ => ?_
    simp only [ite_self, sumI_zero]
  rw [this, sumN_zero]

theorem gathered_nonneg {f : String → String → α → ℕ → ℚ} (h : ∀ g d n, HasNode s g d n → ∀ i a, (el n)[i]? = some a →
    0 ≤ f g d a i) : 0 ≤ gathered place s el keep pos x j f := by
  rw [← gathered_zero (place := place) (s := s) (el := el) (keep := keep) (pos := pos) (x := x) (j := j)]
  exact gathered_le h

theorem gathered_within {f u : String → String → α → ℕ → ℚ} {v : ℚ} (h : ∀ g d n, HasNode s g d n → ∀ i a, (el n)[i]? = some a →
    0 ≤ f g d a i ∧ f g d a i ≤ u g d a i) (hv : gathered place s el keep pos x j u ≤ v) :
    0 ≤ gathered place s el keep pos x j f ∧ gathered place s el keep pos x j f ≤ v :=
  ⟨gathered_nonneg fun g d n hn i a ha => (h g d n hn i a ha).1,
    (gathered_le fun g d n hn i a ha => (h g d n hn i a ha).2).trans hv⟩

theorem gathered_add (f f' : String → String → α → ℕ → ℚ) : (gathered place s el keep pos x j fun g d a i => f g d a i + f' g d a i) =
    gathered place s el keep pos x j f + gathered place s el keep pos x j f' := by
  simp only [gathered_sumN]
  rw [← sumN_add]
  refine sumN_congr fun g d n _ => ?_
  split_ifs
  · rw [← sumI_add]
    refine sumI_congr fun a i _ => ?_
    split_ifs <;> simp
  · simp

theorem gathered_sub (f f' : String → String → α → ℕ → ℚ) : (gathered place s el keep pos x j fun g d a i => f g d a i - f' g d a i) =
    gathered place s el keep pos x j f - gathered place s el keep pos x j f' := by
  have := gathered_add (place := place) (s := s) (el := el) (keep := keep) (pos := pos) (x := x) (j := j)
    (fun g d a i => f g d a i - f' g d a i) f'
  simp only [sub_add_cancel] at this
  linarith

theorem gathered_mul (c : ℚ) (f : String → String → α → ℕ → ℚ) : (gathered place s el keep pos x j fun g d a i => c * f g d a i) =
    c * gathered place s el keep pos x j f := by
  simp only [gathered_sumN]
  rw [← sumN_scale]
  refine sumN_congr fun g d n _ => ?_
  split_ifs
  · rw [← sumI_mul]
    refine sumI_congr fun a i _ => ?_
    split_ifs <;> simp
  · simp

/-- a sum over the elements of the coarser study is a sum over the elements that they are made of -/
theorem sum_gathered (hi' : StudyInv s') (hnodes : ∀ g d n, HasNode s g d n → ∃ n', HasNode s' (place (g, d)).1 (place (g, d)).2 n')
    (W : String → String → α → ℕ → ℚ) (V : String → String → α → ℕ → ℚ) (f : String → String → α → ℕ → ℚ)
    (hW : ∀ g d n, HasNode s g d n → ∀ i a, (el n)[i]? = some a → keep g d a = true → ∃ b,
      (el (newNode place s' g d))[pos g d i]? = some b ∧ W (place (g, d)).1 (place (g, d)).2 b (pos g d i) = V g d a i) :
    (sumN s' fun g' d' n' => sumI (el n') fun b j => W g' d' b j * gathered place s el keep pos (g', d') j f) =
      sumN s fun g d n => sumI (el n) fun a i => if keep g d a = true then V g d a i * f g d a i else 0 := by
  have e1 : (sumN s' fun g' d' n' => sumI (el n') fun b j => W g' d' b j * gathered place s el keep pos (g', d') j f) =
      sumN s' fun g' d' n' => sumN s fun g d n => if place (g, d) = (g', d') then sumI (el n') fun b j => W g' d' b j *
        sumI (el n) fun a i => if keep g d a = true ∧ pos g d i = j then f g d a i else 0 else 0 := by
    refine sumN_congr fun g' d' n' _ => ?_
    have e : (sumI (el n') fun b j => W g' d' b j * gathered place s el keep pos (g', d') j f) =
        sumL (el n').zipIdx fun p => sumN s fun g d n => W g' d' p.1 p.2 * if place (g, d) = (g', d') then
          sumI (el n) fun a i => if keep g d a = true ∧ pos g d i = p.2 then f g d a i else 0 else 0 := by
      rw [sumI_eq]
      refine sumL_congr fun p _ => ?_
      rw [sumN_scale, gathered_sumN]
    rw [e, ← sumN_sumL]
    refine sumN_congr fun g d n _ => ?_
    split_ifs
    · rw [sumI_eq]
    · simp only [mul_zero, sumL_zero]
  rw [e1, sumN_swap]
  refine sumN_congr fun g d n hn => ?_
  obtain ⟨n', hn'⟩ := hnodes g d n hn
  rw [sumN_pick hi' hn' fun g₁ d₁ n₁ _ hne => if_neg fun e => hne ⟨(congrArg Prod.fst e).symm, (congrArg Prod.snd e).symm⟩, if_pos rfl]
  simp only [← sumI_mul]
  rw [sumI_swap]
  refine sumI_congr fun a i ha => ?_
  by_cases hk : keep g d a = true
  · obtain ⟨b, hb, hv⟩ := hW g d n hn i a ha hk
    unfold newNode at hb
    rw [inNode_eq hi' hn'] at hb
    rw [sumI_pick hb, if_pos hk, if_pos ⟨hk, rfl⟩, hv]
    intro b j hj
    rw [if_neg fun h => hj h.2.symm, mul_zero]
  · rw [if_neg hk]
    simp only [hk, Bool.false_eq_true, false_and, if_false, mul_zero, sumI_zero]

end

/-! ### Accounts of the energy of all nodes -/

/-- accounts of the energy of the nodes, each one counted `F` times -/
def accountOf (s : Study) (k : ℕ) (D : Dispatch) (F : String → String → ℚ) (t : ℕ) : ℚ :=
  (sumN s fun g d n => sumI n.productions fun _ i => F g d * D.prod g d i t) +
  (sumN s fun g d n => sumI n.storages fun _ i => F g d * D.fout g d i t) -
  (sumN s fun g d n => sumI n.storages fun _ i => F g d * D.fin g d i t) -
  (sumN s fun g d n => sumI n.consumptions fun c i => F g d * (val c.quantity k t - D.lol g d i t)) +
  (sumN s fun g d n => sumI n.links fun l i => (F g l.dest - F g d) * D.link g d i t) +
  (sumL s.converters fun p => F p.2.destNetwork p.2.destNode * D.convDest p.1 t) -
  sumL s.converters fun p => sumL p.2.srcRatios fun q => F (srcPair q.1).1 (srcPair q.1).2 * D.convSrc p.1 (srcPair q.1) t

theorem account_eq (hi : StudyInv s) (hdest : ∀ p ∈ s.converters, ∃ n, HasNode s p.2.destNetwork p.2.destNode n)
    (F : String → String → ℚ) (t : ℕ) :
    (sumN s fun g d n => F g d * (incoming s D g d n t - outgoing s k D g d n t)) = accountOf s k D F t := by
  have e : (sumN s fun g d n => F g d * (incoming s D g d n t - outgoing s k D g d n t)) =
      sumN s fun g d n => (sumI n.productions fun _ i => F g d * D.prod g d i t) + (sumI n.storages fun _ i => F g d * D.fout g d i t) -
        (sumI n.storages fun _ i => F g d * D.fin g d i t) -
        (sumI n.consumptions fun c i => F g d * (val c.quantity k t - D.lol g d i t)) -
        (sumI n.links fun _ i => F g d * D.link g d i t) + F g d * imports s D g d t + F g d * fromConverters s D g d t -
        F g d * toConverters s D g d t := by
    refine sumN_congr fun g d n _ => ?_
    unfold incoming outgoing
    simp only [sumI_mul]
    ring
  have e2 : (sumN s fun g d n => sumI n.links fun l i => (F g l.dest - F g d) * D.link g d i t) =
      (sumN s fun g d n => sumI n.links fun l i => F g l.dest * D.link g d i t) -
        sumN s fun g d n => sumI n.links fun _ i => F g d * D.link g d i t := by
    rw [← sumN_sub]
    refine sumN_congr fun g d n _ => ?_
    rw [← sumI_sub]
    refine sumI_congr fun _ _ _ => ?_
    ring
  unfold accountOf
  rw [e, sumN_sub, sumN_add, sumN_add, sumN_sub, sumN_sub, sumN_sub, sumN_add, sumN_imports hi, sumN_from hi hdest, sumN_to hi, e2]
  ring

/-! ### Converters -/

theorem gather_src (hi : StudyInv s) (hi' : StudyInv s') (h : Coarser L s k s' k') {p q : String × Converter} (hp : p ∈ s.converters)
    (hq : q ∈ s'.converters) (hc : CoarseConverter L.place s.horizon k k' p.2 q.2) {a : List String × NumVal}
    (ha : a ∈ p.2.srcRatios) (t : ℕ) :
    (D.gather L s).convSrc p.1 (L.place (srcPair a.1)) t = D.convSrc p.1 (srcPair a.1) t := by
  show (sumL s.converters fun p' => if p'.1 = p.1 then sumL p'.2.srcRatios fun q =>
    if L.place (srcPair q.1) = L.place (srcPair a.1) then D.convSrc p.1 (srcPair q.1) t else 0 else 0) = _
  have hkeys : (p.2.srcRatios.map fun z => L.place.key z.1).Nodup := by
    have e : q.2.srcRatios.map Prod.fst = p.2.srcRatios.map fun z => L.place.key z.1 := by
      have := hc.sources
      generalize p.2.srcRatios = l at this
      generalize q.2.srcRatios = l' at this
      induction this with
      | nil => rfl
      | cons hab _ ih => rw [List.map_cons, List.map_cons, ih, hab.1]
    rw [← e]
    exact hi'.names.sources q hq
  have hpair : ∀ z ∈ p.2.srcRatios, ∃ g d, z.1 = [g, d] := by
    intro z hz
    obtain ⟨g, d, n, e, _⟩ := (hi.convs p hp).sources z.1 (List.mem_map_of_mem hz)
    exact ⟨g, d, e⟩
  rw [sumL_only hi.names.converters.of_map hp fun p' hp' hne => if_neg fun e =>
    hne (List.inj_on_of_nodup_map hi.names.converters hp' hp e), if_pos rfl,
    sumL_only hkeys.of_map ha, if_pos rfl]
  intro z hz hne
  refine if_neg fun e => hne (List.inj_on_of_nodup_map hkeys hz ha ?_)
  obtain ⟨g, d, ez⟩ := hpair z hz
  obtain ⟨g', d', ea⟩ := hpair a ha
  beta_reduce
  rw [ez, ea] at e ⊢
  simp only [srcPair] at e
  simp only [Place.key, e]

theorem srcPair_key {l : List String} (h : ∃ g d, l = [g, d]) (place : Place) : srcPair (place.key l) = place (srcPair l) := by
  obtain ⟨g, d, rfl⟩ := h
  rfl

/-! ### The gathered flows -/

theorem Spec.Coarser.account (h : Coarser L s k s' k') (hi : StudyInv s) (hi' : StudyInv s') (F : String → String → ℚ) {t : ℕ}
    (ht : t < s.horizon) :
    accountOf s' k' (D.gather L s) F t = accountOf s k D (fun g d => F (L.place (g, d)).1 (L.place (g, d)).2) t := by
  unfold accountOf
  have e1 := sum_gathered (keep := keepAll) (pos := L.production) (el := InputNode.productions) hi' h.nodes (fun g d _ _ => F g d)
    (fun g d _ _ => F (L.place (g, d)).1 (L.place (g, d)).2) (fun g d _ i => D.prod g d i t) (fun g d n hn i a ha _ => by
      obtain ⟨b, hb, _⟩ := h.productions g d n hn i a ha
      exact ⟨b, hb, rfl⟩)
  have est : ∀ f : String → String → Storage → ℕ → ℚ, _ := fun f =>
    sum_gathered (keep := keepAll) (pos := L.storage) (el := InputNode.storages) hi' h.nodes (fun g d _ _ => F g d)
    (fun g d _ _ => F (L.place (g, d)).1 (L.place (g, d)).2) f (fun g d n hn i a ha _ => by
      obtain ⟨b, hb, _⟩ := h.storages g d n hn i a ha
      exact ⟨b, hb, rfl⟩)
  have e4 := sum_gathered (keep := keepAll) (pos := L.consumption) (el := InputNode.consumptions) hi' h.nodes (fun g d _ _ => F g d)
    (fun g d _ _ => F (L.place (g, d)).1 (L.place (g, d)).2) (fun g d a i => val a.quantity k t - D.lol g d i t)
    (fun g d n hn i a ha _ => by
      obtain ⟨b, hb, _⟩ := h.consumptions g d n hn i a ha
      exact ⟨b, hb, rfl⟩)
  have e5 := sum_gathered (keep := crosses L.place) (pos := L.link) (el := InputNode.links) hi' h.nodes
    (fun g d l _ => F g l.dest - F g d)
    (fun g d a _ => F (L.place (g, a.dest)).1 (L.place (g, a.dest)).2 - F (L.place (g, d)).1 (L.place (g, d)).2)
    (fun g d _ i => D.link g d i t) (fun g d n hn i a ha hx => by
      obtain ⟨e, b, hb, hd, _⟩ := h.links g d n hn i a ha hx
      refine ⟨b, hb, ?_⟩
      rw [hd, e])
  simp only [keepAll, if_true] at e1 est e4
  congr 1
  · congr 1
    · congr 1
      · congr 1
        · congr 1
          · exact congrArg₂ (· + ·) e1 (est fun g d _ i => D.fout g d i t)
          · exact est fun g d _ i => D.fin g d i t
        · rw [← e4]
          refine sumN_congr fun g' d' n' hn' => sumI_congr fun b j hb => ?_
          show F g' d' * (val b.quantity k' t - gathered L.place s InputNode.consumptions keepAll L.consumption (g', d') j
            fun g d _ i => D.lol g d i t) = _
          rw [h.asked g' d' n' hn' j b hb t ht, ← gathered_sub]
      · refine e5.trans (sumN_congr fun g d n hn => sumI_congr fun a i ha => ?_)
        split_ifs with hx
        · rfl
        · simp only [crosses, decide_eq_true_eq, not_not] at hx
          beta_reduce
          rw [hx, sub_self, zero_mul]
    · refine (sumL_rel h.converters fun p hp q hq hpq => ?_).symm
      rw [hpq.2.destNetwork, hpq.2.destNode, ← hpq.1]
      rfl
  · refine (sumL_rel h.converters fun p hp q hq hpq => ?_).symm
    refine sumL_rel hpq.2.sources fun a ha c hc hac => ?_
    have hpair : ∃ g d, a.1 = [g, d] := by
      obtain ⟨g, d, n, e, _⟩ := (hi.convs p hp).sources a.1 (List.mem_map_of_mem ha)
      exact ⟨g, d, e⟩
    rw [hac.1, srcPair_key hpair, ← hpq.1, gather_src hi hi' h hp hq hpq.2 ha]

theorem Spec.Coarser.feasible (h : Coarser L s k s' k') (hi : StudyInv s) (hi' : StudyInv s')
    (hdest : ∀ p ∈ s.converters, ∃ n, HasNode s p.2.destNetwork p.2.destNode n)
    (hdest' : ∀ p ∈ s'.converters, ∃ n, HasNode s' p.2.destNetwork p.2.destNode n)
    (hD : Spec.Feasible s k D) : Spec.Feasible s' k' (D.gather L s) where
  bounds := by
    refine ⟨?_, ?_, ?_, ?_, ?_, ?_⟩
    · intro g' d' n' hn' j b hb t ht
      rw [h.horizon] at ht
      exact gathered_within (place := L.place) (s := s) (el := InputNode.consumptions) (keep := keepAll) (pos := L.consumption) (x := (g', d')) (j := j)
          (f := fun g d _ i => D.lol g d i t) (u := fun _ _ a _ => val a.quantity k t)
        (fun g d n hn i a ha => hD.bounds.consumptions g d n hn i a ha t ht) (h.asked g' d' n' hn' j b hb t ht).ge
    · intro g' d' n' hn' j b hb t ht
      rw [h.horizon] at ht
      exact gathered_within (place := L.place) (s := s) (el := InputNode.productions) (keep := keepAll) (pos := L.production) (x := (g', d')) (j := j)
          (f := fun g d _ i => D.prod g d i t) (u := fun _ _ a _ => val a.quantity k t)
        (fun g d n hn i a ha => hD.bounds.productions g d n hn i a ha t ht) (h.available g' d' n' hn' j b hb t ht)
    · intro g' d' n' hn' j b hb t ht
      rw [h.horizon] at ht
      obtain ⟨r1, r2, r3⟩ := h.room g' d' n' hn' j b hb t ht
      refine ⟨?_, ?_, ?_⟩
      · exact gathered_within (place := L.place) (s := s) (el := InputNode.storages) (keep := keepAll) (pos := L.storage) (x := (g', d')) (j := j)
          (f := fun g d _ i => D.cap g d i t) (u := fun _ _ a _ => val a.capacity k t)
          (fun g d n hn i a ha => (hD.bounds.storages g d n hn i a ha t ht).1) r1
      · exact gathered_within (place := L.place) (s := s) (el := InputNode.storages) (keep := keepAll) (pos := L.storage) (x := (g', d')) (j := j)
          (f := fun g d _ i => D.fin g d i t) (u := fun _ _ a _ => val a.flowIn k t)
          (fun g d n hn i a ha => (hD.bounds.storages g d n hn i a ha t ht).2.1) r2
      · exact gathered_within (place := L.place) (s := s) (el := InputNode.storages) (keep := keepAll) (pos := L.storage) (x := (g', d')) (j := j)
          (f := fun g d _ i => D.fout g d i t) (u := fun _ _ a _ => val a.flowOut k t)
          (fun g d n hn i a ha => (hD.bounds.storages g d n hn i a ha t ht).2.2) r3
    · intro g' d' n' hn' j b hb t ht
      rw [h.horizon] at ht
      exact gathered_within (place := L.place) (s := s) (el := InputNode.links) (keep := (crosses L.place)) (pos := L.link) (x := (g', d')) (j := j)
          (f := fun g d _ i => D.link g d i t) (u := fun _ _ a _ => val a.quantity k t)
        (fun g d n hn i a ha => hD.bounds.links g d n hn i a ha t ht) (h.between g' d' n' hn' j b hb t ht)
    · intro q hq g' d' r' hr' t ht
      rw [h.horizon] at ht
      obtain ⟨p, hp, e, hc⟩ := forall₂_mem_right h.converters hq
      obtain ⟨⟨ka, ra⟩, ha, ek, er⟩ := forall₂_mem_right hc.sources hr'
      obtain ⟨g, d, n, e2, _⟩ := (hi.convs p hp).sources ka (List.mem_map_of_mem (f := Prod.fst) ha)
      dsimp only at ek er
      subst e2
      have ex : (g', d') = L.place (srcPair [g, d]) := by
        simp only [Place.key, List.cons.injEq, and_true] at ek
        exact Prod.ext ek.1 ek.2
      rw [ex, ← e, gather_src hi hi' h hp hq hc ha, er t ht, hc.max t ht]
      exact hD.bounds.convSrc p hp g d ra ha t ht
    · intro q hq t ht
      rw [h.horizon] at ht
      obtain ⟨p, hp, e, hc⟩ := forall₂_mem_right h.converters hq
      rw [← e, hc.max t ht]
      exact hD.bounds.convDest p hp t ht
  balanced := by
    intro g' d' n' hn' t ht
    rw [h.horizon] at ht
    have e := h.account (D := D) hi hi' (fun g d => if (g, d) = (g', d') then 1 else 0) ht
    rw [← account_eq hi' hdest', ← account_eq hi hdest, sumN_pick hi' hn', if_pos rfl, one_mul] at e
    · have e0 : (sumN s fun g d n => (if ((L.place (g, d)).1, (L.place (g, d)).2) = (g', d') then (1 : ℚ) else 0) *
          (incoming s D g d n t - outgoing s k D g d n t)) = sumN s fun _ _ _ => 0 :=
        sumN_congr fun g d n hn => by rw [hD.balanced g d n hn t ht, sub_self, mul_zero]
      rw [e0, sumN_zero] at e
      linarith
    · intro g d n _ hne
      rw [if_neg fun e => hne (Prod.mk.inj e), zero_mul]
  storages := by
    intro g' d' n' hn' j b hb t ht
    rw [h.horizon] at ht
    have hev : ∀ g d n, HasNode s g d n → ∀ i a, n.storages[i]? = some a → D.cap g d i t =
        levelBefore D g d i a.initCapacity t + val a.eff k t * D.fin g d i t - D.fout g d i t :=
      fun g d n hn i a ha => hD.storages g d n hn i a ha t ht
    have heff : (gathered L.place s InputNode.storages keepAll L.storage (g', d') j fun g d a i => val a.eff k t * D.fin g d i t) =
        val b.eff k' t * gathered L.place s InputNode.storages keepAll L.storage (g', d') j fun g d _ i => D.fin g d i t := by
      rw [← gathered_mul]
      refine gathered_congr fun g d n hn hx i a ha hj => ?_
      obtain ⟨b', hb', hc⟩ := h.storages g d n hn i a ha
      unfold newNode at hb'
      rw [hx, inNode_eq hi' hn', hj, hb] at hb'
      cases hb'
      rw [(hc t ht).2]
    have hlev : (gathered L.place s InputNode.storages keepAll L.storage (g', d') j fun g d a i => levelBefore D g d i a.initCapacity t) =
        levelBefore (D.gather L s) g' d' j b.initCapacity t := by
      cases t with
      | zero => exact (h.start g' d' n' hn' j b hb).symm
      | succ t => rfl
    show gathered L.place s InputNode.storages keepAll L.storage (g', d') j (fun g d _ i => D.cap g d i t) =
      levelBefore (D.gather L s) g' d' j b.initCapacity t + val b.eff k' t *
        gathered L.place s InputNode.storages keepAll L.storage (g', d') j (fun g d _ i => D.fin g d i t) -
        gathered L.place s InputNode.storages keepAll L.storage (g', d') j fun g d _ i => D.fout g d i t
    rw [← hlev, ← heff, ← gathered_add, ← gathered_sub]
    exact gathered_congr fun g d n hn _ i a ha _ => hev g d n hn i a ha
  ratios := by
    intro q hq g' d' r' hr' t ht
    rw [h.horizon] at ht
    obtain ⟨p, hp, e, hc⟩ := forall₂_mem_right h.converters hq
    obtain ⟨⟨ka, ra⟩, ha, ek, er⟩ := forall₂_mem_right hc.sources hr'
    obtain ⟨g, d, n, e2, _⟩ := (hi.convs p hp).sources ka (List.mem_map_of_mem (f := Prod.fst) ha)
    dsimp only at ek er
    subst e2
    have ex : (g', d') = L.place (srcPair [g, d]) := by
      simp only [Place.key, List.cons.injEq, and_true] at ek
      exact Prod.ext ek.1 ek.2
    rw [ex, ← e, gather_src hi hi' h hp hq hc ha, er t ht]
    exact hD.ratios p hp g d ra ha t ht

/-- one kind of elements, no more costly when gathered -/
theorem sum_gathered_le {el : InputNode → List α} {keep : String → String → α → Bool} {pos : Positions} (hi' : StudyInv s')
    (hnodes : ∀ g d n, HasNode s g d n → ∃ n', HasNode s' (place (g, d)).1 (place (g, d)).2 n')
    (w v : α → ℚ) (f : String → String → α → ℕ → ℚ)
    (hf : ∀ g d n, HasNode s g d n → ∀ i a, (el n)[i]? = some a → 0 ≤ f g d a i)
    (hv : ∀ g d n, HasNode s g d n → ∀ a ∈ el n, keep g d a = false → 0 ≤ v a)
    (hW : ∀ g d n, HasNode s g d n → ∀ i a, (el n)[i]? = some a → keep g d a = true → ∃ b,
      (el (newNode place s' g d))[pos g d i]? = some b ∧ w b ≤ v a) :
    (sumN s' fun g' d' n' => sumI (el n') fun b j => w b * gathered place s el keep pos (g', d') j f) ≤
      sumN s fun g d n => sumI (el n) fun a i => v a * f g d a i := by
  rw [sum_gathered (W := fun _ _ b _ => w b)
    (V := fun g d _ i => ((el (newNode place s' g d))[pos g d i]?).elim 0 w) hi' hnodes]
  · refine sumN_le fun g d n hn => sumI_le fun a i ha => ?_
    split_ifs with hk
    · obtain ⟨b, hb, hle⟩ := hW g d n hn i a ha hk
      rw [hb]
      exact mul_le_mul_of_nonneg_right hle (hf g d n hn i a ha)
    · exact mul_nonneg (hv g d n hn a (List.mem_of_getElem? ha) (by simpa using hk)) (hf g d n hn i a ha)
  · intro g d n hn i a ha hk
    obtain ⟨b, hb, _⟩ := hW g d n hn i a ha hk
    exact ⟨b, hb, by rw [hb]; rfl⟩

theorem Spec.Coarser.cost (h : Coarser L s k s' k') (hi' : StudyInv s') (hb : Bounds s k D) :
    Spec.cost s' k' (D.gather L s) ≤ Spec.cost s k D := by
  have hc : ∀ (s : Study) (k : ℕ) (D : Dispatch), Spec.cost s k D = sumL (List.range s.horizon) fun t =>
      (sumN s fun g d n => nodeCost k D g d n t) + sumL s.converters fun p => fval p.2.cost k t * D.convDest p.1 t := fun _ _ _ => rfl
  rw [hc, hc, h.horizon]
  refine sumL_le fun t ht => add_le_add ?_ ?_
  · have ht := List.mem_range.mp ht
    unfold nodeCost
    simp only [sumN_add]
    refine add_le_add (add_le_add (add_le_add ?_ ?_) ?_) ?_
    · exact sum_gathered_le (el := InputNode.consumptions) (keep := keepAll) (pos := L.consumption) hi' h.nodes
        (fun b => val b.cost k' t) (fun a => val a.cost k t) (fun g d _ i => D.lol g d i t)
        (fun g d n hn i a ha => (hb.consumptions g d n hn i a ha t ht).1) (fun _ _ _ _ _ _ e => by simp [keepAll] at e)
        fun g d n hn i a ha _ => by
          obtain ⟨b, hb, hle⟩ := h.consumptions g d n hn i a ha
          exact ⟨b, hb, hle t ht⟩
    · exact sum_gathered_le (el := InputNode.productions) (keep := keepAll) (pos := L.production) hi' h.nodes
        (fun b => val b.cost k' t) (fun a => val a.cost k t) (fun g d _ i => D.prod g d i t)
        (fun g d n hn i a ha => (hb.productions g d n hn i a ha t ht).1) (fun _ _ _ _ _ _ e => by simp [keepAll] at e)
        fun g d n hn i a ha _ => by
          obtain ⟨b, hb, hle⟩ := h.productions g d n hn i a ha
          exact ⟨b, hb, hle t ht⟩
    · exact sum_gathered_le (el := InputNode.storages) (keep := keepAll) (pos := L.storage) hi' h.nodes
        (fun b => val b.cost k' t) (fun a => val a.cost k t) (fun g d _ i => D.cap g d i t)
        (fun g d n hn i a ha => (hb.storages g d n hn i a ha t ht).1.1) (fun _ _ _ _ _ _ e => by simp [keepAll] at e)
        fun g d n hn i a ha _ => by
          obtain ⟨b, hb, hle⟩ := h.storages g d n hn i a ha
          exact ⟨b, hb, (hle t ht).1⟩
    · exact sum_gathered_le (el := InputNode.links) (keep := crosses L.place) (pos := L.link) hi' h.nodes
        (fun b => val b.cost k' t) (fun a => val a.cost k t) (fun g d _ i => D.link g d i t)
        (fun g d n hn i a ha => (hb.links g d n hn i a ha t ht).1) (fun g d n hn a ha e => h.inside g d n hn a ha e t ht)
        fun g d n hn i a ha hx => by
          obtain ⟨_, b, hb, _, hle⟩ := h.links g d n hn i a ha hx
          exact ⟨b, hb, hle t ht⟩
  · have ht := List.mem_range.mp ht
    refine sumL_rel_le h.converters fun p hp q hq hpq => ?_
    show fval q.2.cost k' t * D.convDest q.1 t ≤ _
    rw [← hpq.1]
    exact mul_le_mul_of_nonneg_right (hpq.2.cost t ht) (hb.convDest p hp t ht).1

/-- no loss of load is added or left out -/
theorem Spec.Coarser.unserved (h : Coarser L s k s' k') (hi' : StudyInv s') (D : Dispatch) (t : ℕ) :
    (sumN s' fun g d n => sumI n.consumptions fun _ j => (D.gather L s).lol g d j t) =
      sumN s fun g d n => sumI n.consumptions fun _ i => D.lol g d i t := by
  have e := sum_gathered (keep := keepAll) (pos := L.consumption) (el := InputNode.consumptions) hi' h.nodes (fun _ _ _ _ => 1)
    (fun _ _ _ _ => 1) (fun g d _ i => D.lol g d i t) (fun g d n hn i a ha _ => by
      obtain ⟨b, hb, _⟩ := h.consumptions g d n hn i a ha
      exact ⟨b, hb, rfl⟩)
  simp only [keepAll, if_true, one_mul] at e
  exact e

end Hadar
