import Verif.Spec.Cut
import Verif.Proofs.Worth
import Verif.Proofs.Energy
import Verif.Proofs.Window

/-! # Helper lemmas on regions and their deficit -/

namespace Hadar

open Spec

variable {s : Study} {k : ℕ} {D : Dispatch}

/-- accounts of the energy of the nodes, each one counted `F` times -/
theorem region_account (hi : StudyInv s) (hdest : ∀ p ∈ s.converters, ∃ n, HasNode s p.2.destNetwork p.2.destNode n)
    (hb : Balanced s k D) (F : String → String → ℚ) {t : ℕ} (ht : t < s.horizon) :
    (sumN s fun g d n => F g d * sumI n.consumptions fun _ i => D.lol g d i t) =
      (sumN s fun g d n => F g d * ((sumI n.consumptions fun c _ => val c.quantity k t) -
        (sumI n.productions fun _ i => D.prod g d i t) - (sumI n.storages fun _ i => D.fout g d i t) +
        sumI n.storages fun _ i => D.fin g d i t)) +
      (sumN s fun g d n => sumI n.links fun l i => (F g d - F g l.dest) * D.link g d i t) -
      (sumL s.converters fun p => F p.2.destNetwork p.2.destNode * D.convDest p.1 t) +
      sumL s.converters fun p => sumL p.2.srcRatios fun q =>
        F (srcPair q.1).1 (srcPair q.1).2 * D.convSrc p.1 (srcPair q.1) t := by
  have h1 : (sumN s fun g d n => F g d * sumI n.consumptions fun _ i => D.lol g d i t) =
      sumN s fun g d n => (F g d * ((sumI n.consumptions fun c _ => val c.quantity k t) -
        (sumI n.productions fun _ i => D.prod g d i t) - (sumI n.storages fun _ i => D.fout g d i t) +
        sumI n.storages fun _ i => D.fin g d i t)) + (F g d * sumI n.links fun _ i => D.link g d i t) -
        F g d * imports s D g d t - F g d * fromConverters s D g d t + F g d * toConverters s D g d t := by
    refine sumN_congr fun g d n hn => ?_
    have h := hb g d n hn t ht
    unfold incoming outgoing at h
    rw [sumI_sub] at h
    have e : (sumI n.consumptions fun _ i => D.lol g d i t) = (sumI n.consumptions fun c _ => val c.quantity k t) -
        (sumI n.productions fun _ i => D.prod g d i t) - (sumI n.storages fun _ i => D.fout g d i t) +
        (sumI n.storages fun _ i => D.fin g d i t) + (sumI n.links fun _ i => D.link g d i t) -
        imports s D g d t - fromConverters s D g d t + toConverters s D g d t := by linarith
    rw [e]
    ring
  have h2 : (sumN s fun g d n => sumI n.links fun l i => (F g d - F g l.dest) * D.link g d i t) =
      (sumN s fun g d n => F g d * sumI n.links fun _ i => D.link g d i t) -
        sumN s fun g d n => sumI n.links fun l i => F g l.dest * D.link g d i t := by
    rw [← sumN_sub]
    refine sumN_congr fun g d n _ => ?_
    rw [← sumI_mul, ← sumI_sub]
    refine sumI_congr fun _ _ _ => ?_
    ring
  rw [h1, sumN_add, sumN_sub, sumN_sub, sumN_add, sumN_imports hi, sumN_from hi hdest, sumN_to hi, h2]
  ring

theorem sumN_le {f f' : String → String → InputNode → ℚ} (h : ∀ g d n, HasNode s g d n → f g d n ≤ f' g d n) :
    sumN s f ≤ sumN s f' :=
  sumL_le fun p hp => sumL_le fun q hq => h _ _ _ ⟨p.2, hp, hq⟩

theorem sumN_alike_le {N : String → String → InputNode → InputNode → Prop} {C : String → Converter → Converter → Prop} {s' : Study}
    (h : Alike N C s s') {f f' : String → String → InputNode → ℚ} (hf : ∀ g d n n', N g d n n' → f' g d n' ≤ f g d n) :
    sumN s' f' ≤ sumN s f := by
  refine sumL_rel_le h.networks ?_
  rintro ⟨g, net⟩ _ ⟨g', net'⟩ _ ⟨e, hnet⟩
  dsimp only at e hnet ⊢
  subst e
  refine sumL_rel_le hnet ?_
  rintro ⟨d, n⟩ _ ⟨d', n'⟩ _ ⟨e, hN⟩
  dsimp only at e hN ⊢
  subst e
  exact hf _ _ _ _ hN

/-- with more means and no more needs, no region lacks more -/
theorem deficit_better {s' : Study} {k' : ℕ} (h : BetterSupplied s k s' k') (S : Region) {t : ℕ} (ht : t < s.horizon) :
    deficit s' k' S t ≤ deficit s k S t := by
  have hd : ∀ (s : Study) (k : ℕ), deficit s k S t = (sumN s fun g d n => if S g d then
      (sumI n.consumptions fun c _ => val c.quantity k t) - (sumI n.productions fun c _ => val c.quantity k t) -
        sumI n.storages fun c _ => val c.flowOut k t
      else - sumI n.links fun l _ => if S g l.dest then val l.quantity k t else 0) -
    sumL s.converters fun p => if S p.2.destNetwork p.2.destNode then fval p.2.max k t else 0 := fun _ _ => rfl
  rw [hd, hd]
  refine sub_le_sub (sumN_alike_le h fun g d n n' hN => ?_) (sumL_rel_le (f := fun p : String × Converter =>
    if S p.2.destNetwork p.2.destNode then fval p.2.max k' t else 0) (List.Forall₂.flip h.converters) ?_)
  · split_ifs
    · refine sub_le_sub (sub_le_sub ?_ ?_) ?_
      · exact sumI_rel_le hN.consumptions fun i a b _ _ hab => hab.2 t ht
      · exact sumI_rel_le (List.Forall₂.flip hN.productions) fun i a b _ _ hab => hab.2 t ht
      · exact sumI_rel_le (List.Forall₂.flip hN.storages) fun i a b _ _ hab => hab.2.2.1 t ht
    · refine neg_le_neg (sumI_rel_le (List.Forall₂.flip hN.links) fun i a b _ _ hab => ?_)
      obtain ⟨e, -, hq⟩ := hab
      rw [e]
      split_ifs
      · exact hq t ht
      · exact le_refl _
  · rintro ⟨c', x'⟩ _ ⟨c, x⟩ _ ⟨-, hC⟩
    dsimp only at hC ⊢
    rw [hC.destNetwork, hC.destNode]
    split_ifs
    · exact hC.max t ht
    · exact le_refl _

/-- the energy that a region lacks is at least its deficit -/
theorem deficit_le_region (hi : StudyInv s) (hdest : ∀ p ∈ s.converters, ∃ n, HasNode s p.2.destNetwork p.2.destNode n)
    (hb : Balanced s k D) (hB : Bounds s k D) (S : Region) {t : ℕ} (ht : t < s.horizon) :
    deficit s k S t ≤ sumN s fun g d n => if S g d then sumI n.consumptions fun _ i => D.lol g d i t else 0 := by
  have hacc := region_account hi hdest hb (fun g d => if S g d then 1 else 0) ht
  have e : (sumN s fun g d n => (if S g d then (1 : ℚ) else 0) * sumI n.consumptions fun _ i => D.lol g d i t) =
      sumN s fun g d n => if S g d then sumI n.consumptions fun _ i => D.lol g d i t else 0 := by
    refine sumN_congr fun g d n _ => ?_
    split_ifs <;> simp
  rw [← e, hacc]
  have h1 : (sumN s fun g d n => if S g d then
      (sumI n.consumptions fun c _ => val c.quantity k t) - (sumI n.productions fun c _ => val c.quantity k t) -
        sumI n.storages fun c _ => val c.flowOut k t
      else - sumI n.links fun l _ => if S g l.dest then val l.quantity k t else 0) ≤
      (sumN s fun g d n => (if S g d then (1 : ℚ) else 0) * ((sumI n.consumptions fun c _ => val c.quantity k t) -
        (sumI n.productions fun _ i => D.prod g d i t) - (sumI n.storages fun _ i => D.fout g d i t) +
        sumI n.storages fun _ i => D.fin g d i t)) +
      (sumN s fun g d n => sumI n.links fun l i =>
        ((if S g d then (1 : ℚ) else 0) - if S g l.dest then 1 else 0) * D.link g d i t) := by
    rw [← sumN_add]
    refine sumN_le fun g d n hn => ?_
    by_cases hS : S g d
    · simp only [hS, if_true, one_mul]
      have a1 : (sumI n.productions fun _ i => D.prod g d i t) ≤ sumI n.productions fun c _ => val c.quantity k t :=
        sumI_le fun c i hc => (hB.productions g d n hn i c hc t ht).2
      have a2 : (sumI n.storages fun _ i => D.fout g d i t) ≤ sumI n.storages fun c _ => val c.flowOut k t :=
        sumI_le fun c i hc => (hB.storages g d n hn i c hc t ht).2.2.2
      have a3 : 0 ≤ sumI n.storages fun _ i => D.fin g d i t := by
        have := sumI_le (l := n.storages) (f := fun _ _ => 0) (f' := fun _ i => D.fin g d i t)
          fun c i hc => (hB.storages g d n hn i c hc t ht).2.1.1
        rwa [sumI_zero] at this
      have a4 : 0 ≤ sumI n.links fun l i => ((1 : ℚ) - if S g l.dest then 1 else 0) * D.link g d i t := by
        have := sumI_le (l := n.links) (f := fun _ _ => 0)
          (f' := fun l i => ((1 : ℚ) - if S g l.dest then 1 else 0) * D.link g d i t) fun c i hc => by
            have := (hB.links g d n hn i c hc t ht).1
            split_ifs
            · simp
            · simpa using this
        rwa [sumI_zero] at this
      linarith
    · simp only [hS, Bool.false_eq_true, if_false, zero_mul, zero_add]
      rw [← sumI_neg']
      refine sumI_le fun c i hc => ?_
      have := (hB.links g d n hn i c hc t ht).2
      split_ifs
      · linarith
      · simp
  have h2 : (sumL s.converters fun p => (if S p.2.destNetwork p.2.destNode then (1 : ℚ) else 0) * D.convDest p.1 t) ≤
      sumL s.converters fun p => if S p.2.destNetwork p.2.destNode then fval p.2.max k t else 0 := by
    refine sumL_le fun p hp => ?_
    split_ifs
    · simpa using (hB.convDest p hp t ht).2
    · simp
  have h3 : 0 ≤ sumL s.converters fun p => sumL p.2.srcRatios fun q =>
      (if S (srcPair q.1).1 (srcPair q.1).2 then (1 : ℚ) else 0) * D.convSrc p.1 (srcPair q.1) t := by
    refine sumL_nonneg' fun p hp => sumL_nonneg' fun q hq => ?_
    obtain ⟨g, d, n, eq, hn⟩ := (hi.convs p hp).sources q.1 (List.mem_map.mpr ⟨q, hq, rfl⟩)
    have : 0 ≤ D.convSrc p.1 (srcPair q.1) t := by
      rw [eq]
      exact (hB.convSrc p hp g d q.2 (by rw [← eq]; exact hq) t ht).1
    split_ifs
    · simpa using this
    · simp
  have hd : deficit s k S t = (sumN s fun g d n => if S g d then
      (sumI n.consumptions fun c _ => val c.quantity k t) - (sumI n.productions fun c _ => val c.quantity k t) -
        sumI n.storages fun c _ => val c.flowOut k t
      else - sumI n.links fun l _ => if S g l.dest then val l.quantity k t else 0) -
      sumL s.converters fun p => if S p.2.destNetwork p.2.destNode then fval p.2.max k t else 0 := rfl
  rw [hd]
  refine le_trans (sub_le_sub h1 h2) ?_
  exact le_add_of_nonneg_right h3

/-- deficit of a region when there are links only -/
theorem deficit_links (ho : OnlyLinks s) (S : Region) (t : ℕ) :
    deficit s k S t = sumN s fun g d n => if S g d then
      (sumI n.consumptions fun c _ => val c.quantity k t) - sumI n.productions fun c _ => val c.quantity k t
      else - sumI n.links fun l _ => if S g l.dest then val l.quantity k t else 0 := by
  unfold deficit
  rw [ho.1]
  have e0 : ∀ f : String × Converter → ℚ, sumL [] f = 0 := fun f => rfl
  rw [e0, sub_zero]
  refine sumN_congr (f := fun g d n => if S g d then
    (sumI n.consumptions fun c _ => val c.quantity k t) - (sumI n.productions fun c _ => val c.quantity k t) -
      sumI n.storages fun c _ => val c.flowOut k t
    else - sumI n.links fun l _ => if S g l.dest then val l.quantity k t else 0) fun g d n hn => ?_
  rw [ho.2 g d n hn]
  simp [sumI]

theorem region_le_unserved (hB : Bounds s k D) (S : Region) {t : ℕ} (ht : t < s.horizon) :
    (sumN s fun g d n => if S g d then sumI n.consumptions fun _ i => D.lol g d i t else 0) ≤ unserved s D t := by
  have e : unserved s D t = sumN s fun g d n => sumI n.consumptions fun _ i => D.lol g d i t := rfl
  rw [e]
  refine sumN_le fun g d n hn => ?_
  split_ifs
  · exact le_refl _
  · exact sumI_nonneg_of _ _ fun i c hc => (hB.consumptions g d n hn i c hc t ht).1

theorem member_le_sumL {α : Type} {l : List α} {f : α → ℚ} (h : ∀ x ∈ l, 0 ≤ f x) {x : α} (hx : x ∈ l) : f x ≤ sumL l f := by
  induction l with
  | nil => cases hx
  | cons a l ih =>
    have hc : sumL (a :: l) f = f a + sumL l f := by simp [sumL]
    have h1 := h a (List.mem_cons_self ..)
    have h2 : 0 ≤ sumL l f := sumL_nonneg' fun y hy => h y (List.mem_cons_of_mem _ hy)
    rw [hc]
    rcases List.mem_cons.mp hx with rfl | hx
    · linarith
    · have := ih (fun y hy => h y (List.mem_cons_of_mem _ hy)) hx
      linarith

theorem lol_le_unserved (hB : Bounds s k D) {t : ℕ} (ht : t < s.horizon) {g d : String} {n : InputNode} (hn : HasNode s g d n)
    {i : ℕ} {x : Consumption} (hx : n.consumptions[i]? = some x) : D.lol g d i t ≤ unserved s D t := by
  have h0 : ∀ p ∈ s.networks, ∀ q ∈ p.2.nodes, 0 ≤ sumI q.2.consumptions fun _ i => D.lol p.1 q.1 i t := fun p hp q hq =>
    sumI_nonneg_of _ _ fun i c hc => (hB.consumptions _ _ _ (⟨p.2, hp, hq⟩ : HasNode s p.1 q.1 q.2) i c hc t ht).1
  have hn' := hn
  obtain ⟨net, hg, hd⟩ := hn'
  have h1 : D.lol g d i t ≤ sumI n.consumptions fun _ i => D.lol g d i t := by
    rw [sumI_eq]
    exact member_le_sumL (f := fun p : Consumption × ℕ => D.lol g d p.2 t)
      (fun p hp => (hB.consumptions g d n hn p.2 p.1 (mem_zipIdx_iff.mp hp) t ht).1) (x := (x, i)) (mem_zipIdx_iff.mpr hx)
  have h2 := member_le_sumL (f := fun q : String × InputNode => sumI q.2.consumptions fun _ i => D.lol g q.1 i t)
    (fun q hq => h0 _ hg q hq) hd
  have h3 := member_le_sumL (f := fun p : String × InputNetwork => sumL p.2.nodes fun q => sumI q.2.consumptions fun _ i => D.lol p.1 q.1 i t)
    (fun p hp => sumL_nonneg' fun q hq => h0 p hp q hq) hg
  exact le_trans h1 (le_trans h2 h3)

/-- a value under `v`, not too far, with nothing just under it -/
theorem exists_gap {c : ℚ} (hc : 0 ≤ c) (l : List ℚ) : ∀ (m : ℕ) (v : ℚ), (l.filter fun p => decide (p < v)).length ≤ m →
    ∃ θ, v - m * c ≤ θ ∧ θ ≤ v ∧ ∀ p ∈ l, p < θ → p + c < θ := by
  intro m
  induction m with
  | zero =>
    intro v h
    refine ⟨v, by simp, le_refl _, fun p hp hlt => ?_⟩
    have : p ∈ l.filter fun p => decide (p < v) := List.mem_filter.mpr ⟨hp, by simpa⟩
    rw [List.length_eq_zero_iff.mp (Nat.le_zero.mp h)] at this
    cases this
  | succ m ih =>
    intro v h
    by_cases hall : ∀ p ∈ l, p < v → p + c < v
    · refine ⟨v, ?_, le_refl _, hall⟩
      have : 0 ≤ ((m + 1 : ℕ) : ℚ) * c := by positivity
      linarith
    · push Not at hall
      obtain ⟨p, hp, h1, h2⟩ := hall
      have hlt : (l.filter fun q => decide (q < v - c)).length < (l.filter fun q => decide (q < v)).length := by
        have e : l.filter (fun q => decide (q < v - c)) = (l.filter fun q => decide (q < v)).filter fun q => decide (q < v - c) := by
          rw [List.filter_filter]
          refine List.filter_congr fun q _ => ?_
          by_cases hq : q < v - c
          · have : q < v := by linarith
            simp [hq, this]
          · simp [hq]
        rw [e]
        apply List.length_filter_lt_length_iff_exists.mpr
        exact ⟨p, List.mem_filter.mpr ⟨hp, by simpa⟩, by simp; linarith⟩
      obtain ⟨θ, a1, a2, a3⟩ := ih (v - c) (by omega)
      refine ⟨θ, ?_, by linarith, a3⟩
      push_cast
      linarith

end Hadar
