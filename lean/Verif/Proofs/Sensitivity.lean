import Verif.Spec.Sensitivity
import Verif.Proofs.LPMerit

/-!
# Carrying a dispatch from a study to an easier one
-/

namespace Hadar

open Spec

theorem sumL_rel {α β : Type} {R : α → β → Prop} {l : List α} {l' : List β} (h : List.Forall₂ R l l') {f : α → ℚ}
    {g : β → ℚ} (hfg : ∀ a ∈ l, ∀ b ∈ l', R a b → f a = g b) : sumL l f = sumL l' g := by
  induction h with
  | nil => rfl
  | cons hab _ ih =>
    have hc : ∀ {γ : Type} (a : γ) (l : List γ) (h : γ → ℚ), sumL (a :: l) h = h a + sumL l h := by
      intros; simp [sumL]
    rw [hc, hc, hfg _ (by simp) _ (by simp) hab, ih fun a ha b hb => hfg a (by simp [ha]) b (by simp [hb])]

theorem sumL_rel_le {α β : Type} {R : α → β → Prop} {l : List α} {l' : List β} (h : List.Forall₂ R l l') {f : α → ℚ}
    {g : β → ℚ} (hfg : ∀ a ∈ l, ∀ b ∈ l', R a b → g b ≤ f a) : sumL l' g ≤ sumL l f := by
  induction h with
  | nil => exact le_refl _
  | cons hab _ ih =>
    have hc : ∀ {γ : Type} (a : γ) (l : List γ) (h : γ → ℚ), sumL (a :: l) h = h a + sumL l h := by
      intros; simp [sumL]
    rw [hc, hc]
    exact add_le_add (hfg _ (by simp) _ (by simp) hab) (ih fun a ha b hb => hfg a (by simp [ha]) b (by simp [hb]))

theorem forall₂_zipIdx {α β : Type} {R : α → β → Prop} {l : List α} {l' : List β} (h : List.Forall₂ R l l') (i : ℕ) :
    List.Forall₂ (fun p q => p.2 = q.2 ∧ R p.1 q.1) (l.zipIdx i) (l'.zipIdx i) := by
  induction h generalizing i with
  | nil => simp
  | cons hab _ ih =>
    rw [List.zipIdx_cons, List.zipIdx_cons]
    exact .cons ⟨rfl, hab⟩ (ih _)

theorem sumI_rel {α β : Type} {R : α → β → Prop} {l : List α} {l' : List β} (h : List.Forall₂ R l l') {f : α → ℕ → ℚ}
    {g : β → ℕ → ℚ} (hfg : ∀ i a b, l[i]? = some a → l'[i]? = some b → R a b → f a i = g b i) :
    sumI l f = sumI l' g := by
  rw [sumI_eq, sumI_eq]
  apply sumL_rel (forall₂_zipIdx h 0)
  rintro ⟨a, i⟩ ha ⟨b, j⟩ hb ⟨e, hab⟩
  dsimp only at e hab
  subst e
  exact hfg i a b (mem_zipIdx_iff.mp ha) (mem_zipIdx_iff.mp hb) hab

theorem sumI_rel_le {α β : Type} {R : α → β → Prop} {l : List α} {l' : List β} (h : List.Forall₂ R l l') {f : α → ℕ → ℚ}
    {g : β → ℕ → ℚ} (hfg : ∀ i a b, l[i]? = some a → l'[i]? = some b → R a b → g b i ≤ f a i) :
    sumI l' g ≤ sumI l f := by
  rw [sumI_eq, sumI_eq]
  apply sumL_rel_le (forall₂_zipIdx h 0)
  rintro ⟨a, i⟩ ha ⟨b, j⟩ hb ⟨e, hab⟩
  dsimp only at e hab
  subst e
  exact hfg i a b (mem_zipIdx_iff.mp ha) (mem_zipIdx_iff.mp hb) hab

theorem sumI_mul {α : Type} (l : List α) (c : ℚ) (f : α → ℕ → ℚ) : (sumI l fun a i => c * f a i) = c * sumI l f := by
  rw [sumI_eq, sumI_eq, sumL_mul]

theorem forall₂_mem_right {α β : Type} {R : α → β → Prop} {l : List α} {l' : List β} (h : List.Forall₂ R l l') {b : β}
    (hb : b ∈ l') : ∃ a ∈ l, R a b := by
  induction h with
  | nil => cases hb
  | cons hab _ ih =>
    rcases List.mem_cons.mp hb with rfl | hb
    · exact ⟨_, by simp, hab⟩
    · obtain ⟨a, ha, h⟩ := ih hb
      exact ⟨a, by simp [ha], h⟩

theorem forall₂_get_right {α β : Type} {R : α → β → Prop} {l : List α} {l' : List β} (h : List.Forall₂ R l l') {i : ℕ}
    {b : β} (hb : l'[i]? = some b) : ∃ a, l[i]? = some a ∧ R a b := by
  induction h generalizing i with
  | nil => simp at hb
  | cons hab _ ih =>
    cases i with
    | zero => simp at hb; subst hb; exact ⟨_, rfl, hab⟩
    | succ i =>
      simp only [List.getElem?_cons_succ] at hb ⊢
      exact ih hb

variable {N : String → String → InputNode → InputNode → Prop} {C : String → Converter → Converter → Prop}
  {s s' : Study}

theorem Alike.node (h : Alike N C s s') {g d : String} {n' : InputNode} (hn : HasNode s' g d n') :
    ∃ n, HasNode s g d n ∧ N g d n n' := by
  obtain ⟨net', hg, hd⟩ := hn
  obtain ⟨⟨g0, net⟩, hg0, e, hnet⟩ := forall₂_mem_right h.networks hg
  obtain ⟨⟨d0, n⟩, hd0, e', hN⟩ := forall₂_mem_right hnet hd
  dsimp only at e e' hd0
  subst e e'
  exact ⟨n, ⟨net, hg0, hd0⟩, hN⟩

theorem Alike.conv (h : Alike N C s s') {p' : String × Converter} (hp : p' ∈ s'.converters) :
    ∃ p ∈ s.converters, p.1 = p'.1 ∧ C p.1 p.2 p'.2 := by
  obtain ⟨p, hp, e, hC⟩ := forall₂_mem_right h.converters hp
  exact ⟨p, hp, e, hC⟩

variable {h k k' : ℕ} {a b : ℚ} {D : Dispatch}

theorem imports_alike (hal : Alike N C s s')
    (hl : ∀ g d n n', N g d n n' → List.Forall₂ (fun a b : Link => a.dest = b.dest) n.links n'.links) (g d : String) (t : ℕ) :
    imports s' (D.scale b) g d t = b * imports s D g d t := by
  unfold imports
  rw [← sumL_mul, sumL_filter, sumL_filter]
  symm
  apply sumL_rel hal.networks
  rintro ⟨g1, net⟩ _ ⟨g2, net'⟩ _ ⟨e, hnet⟩
  dsimp only at e hnet ⊢
  subst e
  by_cases hg : g1 = g
  · simp only [hg, decide_true, if_true]
    rw [← sumL_mul]
    apply sumL_rel hnet
    rintro ⟨d1, n⟩ _ ⟨d2, n'⟩ _ ⟨e, hN⟩
    dsimp only at e hN ⊢
    subst e
    rw [← sumI_mul]
    apply sumI_rel (hl _ _ n n' hN)
    intro i l l' _ _ e
    rw [e]
    split_ifs
    · rfl
    · simp
  · simp [hg]

theorem fromConverters_alike (hal : Alike N C s s')
    (hc : ∀ x c c', C x c c' → c.destNetwork = c'.destNetwork ∧ c.destNode = c'.destNode) (g d : String) (t : ℕ) :
    fromConverters s' (D.scale b) g d t = b * fromConverters s D g d t := by
  unfold fromConverters
  rw [← sumL_mul]
  symm
  apply sumL_rel hal.converters
  rintro ⟨x, c⟩ _ ⟨y, c'⟩ _ ⟨e, hC⟩
  dsimp only at e hC ⊢
  subst e
  rw [(hc _ c c' hC).1, (hc _ c c' hC).2]
  split_ifs
  · rfl
  · simp

theorem toConverters_alike (hal : Alike N C s s')
    (hc : ∀ x c c', C x c c' → List.Forall₂ (fun a b => a.1 = b.1) c.srcRatios c'.srcRatios) (g d : String) (t : ℕ) :
    toConverters s' (D.scale b) g d t = b * toConverters s D g d t := by
  unfold toConverters
  rw [← sumL_mul]
  symm
  apply sumL_rel hal.converters
  rintro ⟨x, c⟩ _ ⟨y, c'⟩ _ ⟨e, hC⟩
  dsimp only at e hC ⊢
  subst e
  rw [← sumL_mul]
  apply sumL_rel (hc _ c c' hC)
  intro q _ q' _ e
  rw [e]
  split_ifs
  · rfl
  · simp

/-- quantities multiplied by `b` at least, costs multiplied by `a` at most -/
def Carried (a b : ℚ) (s : Study) (k : ℕ) (s' : Study) (k' : ℕ) : Prop :=
  Compared (fun x y => y ≤ a * x) (fun x y => b * x ≤ y) (fun x y => y = b * x) s k s' k'

theorem Compared.codeFeasible' {R L : ℚ → ℚ → Prop} (hb : 0 ≤ b) (hc : Compared R L (fun x y => y = b * x) s k s' k')
    (hl : ∀ x y, L x y → b * x ≤ y)
    (hr : ∀ p ∈ s.converters, ∀ q ∈ p.2.srcRatios, ∀ t < s.horizon, ∀ x y, L x y → b * (x / val q.2 k t) ≤ y / val q.2 k t)
    (hf : CodeFeasible s k D) : CodeFeasible s' k' (D.scale b) where
  bounds := {
    consumptions := fun g d n' hn' i c' hc' t ht => by
      obtain ⟨n, hn, hN⟩ := Alike.node hc hn'
      obtain ⟨c, hc, -, h2⟩ := forall₂_get_right hN.consumptions hc'
      have ht' : t < s.horizon := by rw [Alike.horizon ‹_›]; exact ht
      have := hf.bounds.consumptions g d n hn i c hc t ht'
      rw [h2 t ht']
      exact ⟨mul_nonneg hb this.1, mul_le_mul_of_nonneg_left this.2 hb⟩
    productions := fun g d n' hn' i c' hc' t ht => by
      obtain ⟨n, hn, hN⟩ := Alike.node hc hn'
      obtain ⟨c, hc, -, h2⟩ := forall₂_get_right hN.productions hc'
      have ht' : t < s.horizon := by rw [Alike.horizon ‹_›]; exact ht
      have := hf.bounds.productions g d n hn i c hc t ht'
      exact ⟨mul_nonneg hb this.1, le_trans (mul_le_mul_of_nonneg_left this.2 hb) (hl _ _ (h2 t ht'))⟩
    storages := fun g d n' hn' i c' hc' t ht => by
      obtain ⟨n, hn, hN⟩ := Alike.node hc hn'
      obtain ⟨c, hc, h1, h2, h3, -⟩ := forall₂_get_right hN.storages hc'
      have ht' : t < s.horizon := by rw [Alike.horizon ‹_›]; exact ht
      obtain ⟨e1, e2, e3⟩ := hf.bounds.storages g d n hn i c hc t ht'
      exact ⟨⟨mul_nonneg hb e1.1, le_trans (mul_le_mul_of_nonneg_left e1.2 hb) (hl _ _ (h1 t ht'))⟩,
        ⟨mul_nonneg hb e2.1, le_trans (mul_le_mul_of_nonneg_left e2.2 hb) (hl _ _ (h2 t ht'))⟩,
        ⟨mul_nonneg hb e3.1, le_trans (mul_le_mul_of_nonneg_left e3.2 hb) (hl _ _ (h3 t ht'))⟩⟩
    links := fun g d n' hn' i c' hc' t ht => by
      obtain ⟨n, hn, hN⟩ := Alike.node hc hn'
      obtain ⟨c, hc, -, -, h2⟩ := forall₂_get_right hN.links hc'
      have ht' : t < s.horizon := by rw [Alike.horizon ‹_›]; exact ht
      have := hf.bounds.links g d n hn i c hc t ht'
      exact ⟨mul_nonneg hb this.1, le_trans (mul_le_mul_of_nonneg_left this.2 hb) (hl _ _ (h2 t ht'))⟩
    convSrc := fun p' hp' g d r' hr' t ht => by
      obtain ⟨p, hp, e, hC⟩ := Alike.conv hc hp'
      obtain ⟨⟨key, r⟩, hq, e', hs⟩ := forall₂_mem_right hC.sources hr'
      dsimp only at e' hs
      subst e'
      have ht' : t < s.horizon := by rw [Alike.horizon ‹_›]; exact ht
      have := hf.bounds.convSrc p hp g d r hq t ht'
      have hpos := hr p hp _ hq t ht'
      dsimp only at hpos
      rw [← e, ← hs t ht']
      exact ⟨mul_nonneg hb this.1, fun hz => le_trans (mul_le_mul_of_nonneg_left (this.2 hz) hb) (hpos _ _ (hC.max t ht'))⟩
    convDest := fun p' hp' t ht => by
      obtain ⟨p, hp, e, hC⟩ := Alike.conv hc hp'
      have ht' : t < s.horizon := by rw [Alike.horizon ‹_›]; exact ht
      have := hf.bounds.convDest p hp t ht'
      rw [← e]
      exact ⟨mul_nonneg hb this.1, le_trans (mul_le_mul_of_nonneg_left this.2 hb) (hl _ _ (hC.max t ht'))⟩ }
  balance := fun g d n' hn' t ht => by
    obtain ⟨n, hn, hN⟩ := Alike.node hc hn'
    have ht' : t < s.horizon := by rw [Alike.horizon hc]; exact ht
    have e := hf.balance g d n hn t ht'
    have h1 : incoming s' (D.scale b) g d n' t = b * incoming s D g d n t := by
      unfold incoming
      rw [imports_alike hc fun _ _ n n' h => h.links.imp fun _ _ h => h.1,
        fromConverters_alike hc fun _ c c' h => ⟨h.destNetwork, h.destNode⟩, mul_add, mul_add, mul_add, ← sumI_mul, ← sumI_mul,
        sumI_rel hN.productions (g := fun _ i => b * D.prod g d i t) (fun _ _ _ _ _ _ => rfl),
        sumI_rel hN.storages (g := fun _ i => b * D.fout g d i t) (fun _ _ _ _ _ _ => rfl)]
      rfl
    have h2 : outgoing s' k' (D.scale b) g d n' t = b * outgoing s k D g d n t := by
      unfold outgoing
      rw [toConverters_alike hc fun _ c c' h => h.sources.imp fun _ _ h => h.1, mul_add, mul_add, mul_add,
        ← sumI_mul, ← sumI_mul, ← sumI_mul,
        sumI_rel hN.storages (g := fun _ i => b * D.fin g d i t) (fun _ _ _ _ _ _ => rfl),
        sumI_rel hN.links (g := fun _ i => b * D.link g d i t) (fun _ _ _ _ _ _ => rfl),
        sumI_rel hN.consumptions (g := fun (c : Consumption) i => val c.quantity k' t - b * D.lol g d i t) (by
          rintro i c c' - - ⟨-, h⟩
          rw [h t ht']
          ring)]
      rfl
    have h3 : selfFlow (D.scale b) g d n' t = b * selfFlow D g d n t := by
      unfold selfFlow
      rw [← sumI_mul]
      symm
      apply sumI_rel hN.links
      rintro i l l' - - ⟨e, -⟩
      rw [e]
      split_ifs
      · rfl
      · simp
    rw [h1, h2, h3, ← e]
    ring
  storages := fun g d n' hn' c' hc' t ht => by
    obtain ⟨n, hn, hN⟩ := Alike.node hc hn'
    have ht' : t < s.horizon := by rw [Alike.horizon hc]; exact ht
    rw [List.head?_eq_getElem?] at hc'
    obtain ⟨c, hc, -, -, -, -, h5, h6⟩ := forall₂_get_right hN.storages hc'
    have e := hf.storages g d n hn c (by rw [List.head?_eq_getElem?]; exact hc) t ht'
    unfold Evolves at e ⊢
    rw [← h6 t ht']
    cases t with
    | zero =>
      simp only [levelBefore, Dispatch.scale] at e ⊢
      rw [e, h5]
      ring
    | succ t =>
      simp only [levelBefore, Dispatch.scale] at e ⊢
      rw [e]
      ring
  ratios := fun p' hp' g d r' hr' t ht => by
    obtain ⟨p, hp, e, hC⟩ := Alike.conv hc hp'
    obtain ⟨⟨key, r⟩, hq, e', hs⟩ := forall₂_mem_right hC.sources hr'
    dsimp only at e' hs
    subst e'
    have ht' : t < s.horizon := by rw [Alike.horizon hc]; exact ht
    have := hf.ratios p hp g d r hq t ht'
    rw [← e, ← hs t ht']
    simp only [Dispatch.scale]
    rw [mul_assoc, this]

theorem Compared.codeFeasible {R : ℚ → ℚ → Prop} (hb : 0 ≤ b)
    (hc : Compared R (fun x y => b * x ≤ y) (fun x y => y = b * x) s k s' k') (hr : RatiosNonneg s k)
    (hf : CodeFeasible s k D) : CodeFeasible s' k' (D.scale b) :=
  Compared.codeFeasible' hb hc (fun _ _ h => h) (fun p hp q hq t ht x y h => by
    rw [mul_div_assoc']
    exact div_le_div_of_nonneg_right h (hr p hp q hq t ht)) hf

theorem Carried.codeFeasible (hb : 0 ≤ b) (hc : Carried a b s k s' k') (hr : RatiosNonneg s k)
    (hf : CodeFeasible s k D) : CodeFeasible s' k' (D.scale b) := Compared.codeFeasible hb hc hr hf

theorem Carried.cost (hb : 0 ≤ b) (hc : Carried a b s k s' k') (hf : CodeFeasible s k D) :
    cost s' k' (D.scale b) ≤ a * b * cost s k D := by
  have term : ∀ {x y q : ℚ}, 0 ≤ q → y ≤ a * x → y * (b * q) ≤ a * b * (x * q) := by
    intro x y q hq h
    have := mul_le_mul_of_nonneg_right h (mul_nonneg hb hq)
    linarith
  unfold Spec.cost
  rw [← Alike.horizon hc, ← sumL_mul]
  apply sumL_rel_le (List.forall₂_refl _ : List.Forall₂ Eq (List.range s.horizon) _)
  rintro t ht _ - rfl
  have ht : t < s.horizon := by simpa using ht
  rw [mul_add, ← sumL_mul, ← sumL_mul]
  refine add_le_add ?_ ?_
  · apply sumL_rel_le (Alike.networks hc)
    rintro ⟨g, net⟩ hg ⟨g', net'⟩ - ⟨e, hnet⟩
    dsimp only at e hnet ⊢
    subst e
    rw [← sumL_mul]
    apply sumL_rel_le hnet
    rintro ⟨d, n⟩ hd ⟨d', n'⟩ - ⟨e, hN⟩
    dsimp only at e hN ⊢
    subst e
    have hn : HasNode s g d n := ⟨net, hg, hd⟩
    unfold nodeCost
    rw [mul_add, mul_add, mul_add, ← sumI_mul, ← sumI_mul, ← sumI_mul, ← sumI_mul]
    refine add_le_add (add_le_add (add_le_add ?_ ?_) ?_) ?_
    · apply sumI_rel_le hN.consumptions
      rintro i c c' hc - ⟨h, -⟩
      exact term (hf.bounds.consumptions g d n hn i c hc t ht).1 (h t ht)
    · apply sumI_rel_le hN.productions
      rintro i c c' hc - ⟨h, -⟩
      exact term (hf.bounds.productions g d n hn i c hc t ht).1 (h t ht)
    · apply sumI_rel_le hN.storages
      rintro i c c' hc - ⟨-, -, -, h, -⟩
      exact term (hf.bounds.storages g d n hn i c hc t ht).1.1 (h t ht)
    · apply sumI_rel_le hN.links
      rintro i c c' hc - ⟨-, h, -⟩
      exact term (hf.bounds.links g d n hn i c hc t ht).1 (h t ht)
  · apply sumL_rel_le (Alike.converters hc)
    rintro p hp p' - ⟨e, hC⟩
    rw [← e]
    exact term (hf.bounds.convDest p hp t ht).1 (hC.cost t ht)

theorem Series.imp {R R' : ℚ → ℚ → Prop} (hR : ∀ x y, R x y → R' x y) {v v' : NumVal} (hs : Series h k k' R v v') :
    Series h k k' R' v v' := fun t ht => hR _ _ (hs t ht)

theorem Compared.imp {cost limit data cost' limit' data' : ℚ → ℚ → Prop} (h1 : ∀ x y, cost x y → cost' x y)
    (h2 : ∀ x y, limit x y → limit' x y) (h3 : ∀ x y, data x y → data' x y)
    (hc : Compared cost limit data s k s' k') : Compared cost' limit' data' s k s' k' where
  horizon := Alike.horizon hc
  networks := (Alike.networks hc).imp fun _ _ h => ⟨h.1, h.2.imp fun _ _ h => ⟨h.1, {
    consumptions := h.2.consumptions.imp fun _ _ h => ⟨Series.imp h1 h.1, Series.imp h3 h.2⟩
    productions := h.2.productions.imp fun _ _ h => ⟨Series.imp h1 h.1, Series.imp h2 h.2⟩
    storages := h.2.storages.imp fun _ _ h => ⟨Series.imp h2 h.1, Series.imp h2 h.2.1, Series.imp h2 h.2.2.1,
      Series.imp h1 h.2.2.2.1, h3 _ _ h.2.2.2.2.1, h.2.2.2.2.2⟩
    links := h.2.links.imp fun _ _ h => ⟨h.1, Series.imp h1 h.2.1, Series.imp h2 h.2.2⟩ }⟩⟩
  converters := (Alike.converters hc).imp fun _ _ h => ⟨h.1, {
    sources := h.2.sources
    destNetwork := h.2.destNetwork
    destNode := h.2.destNode
    cost := fun t ht => h1 _ _ (h.2.cost t ht)
    max := fun t ht => h2 _ _ (h.2.max t ht) }⟩

theorem Compared.flip {cost limit data : ℚ → ℚ → Prop} (hc : Compared cost limit data s k s' k') :
    Compared (fun x y => cost y x) (fun x y => limit y x) (fun x y => data y x) s' k' s k where
  horizon := (Alike.horizon hc).symm
  networks := by
    rw [← Alike.horizon hc]
    exact (Alike.networks hc).flip.imp fun _ _ h => ⟨h.1.symm, h.2.flip.imp fun _ _ h => ⟨h.1.symm, {
      consumptions := h.2.consumptions.flip
      productions := h.2.productions.flip
      storages := h.2.storages.flip.imp fun _ _ h => ⟨h.1, h.2.1, h.2.2.1, h.2.2.2.1, h.2.2.2.2.1,
        fun t ht => (h.2.2.2.2.2 t ht).symm⟩
      links := h.2.links.flip.imp fun _ _ h => ⟨h.1.symm, h.2⟩ }⟩⟩
  converters := by
    rw [← Alike.horizon hc]
    exact (Alike.converters hc).flip.imp fun _ _ h => ⟨h.1.symm, {
      sources := h.2.sources.flip.imp fun _ _ h => ⟨h.1.symm, fun t ht => (h.2 t ht).symm⟩
      destNetwork := h.2.destNetwork.symm
      destNode := h.2.destNode.symm
      cost := h.2.cost
      max := h.2.max }⟩

theorem RatiosNonneg.compared {cost limit data : ℚ → ℚ → Prop} (hc : Compared cost limit data s k s' k')
    (hr : RatiosNonneg s k) : RatiosNonneg s' k' := by
  intro p' hp' q' hq' t ht
  obtain ⟨p, hp, -, hC⟩ := Alike.conv hc hp'
  obtain ⟨q, hq, -, hs⟩ := forall₂_mem_right hC.sources hq'
  have ht' : t < s.horizon := by rw [Alike.horizon hc]; exact ht
  rw [← hs t ht']
  exact hr p hp q hq t ht'

theorem Dispatch.scale_one (D : Dispatch) : D.scale 1 = D := by
  simp [Dispatch.scale]

theorem NoSelfLink.compared {cost limit data : ℚ → ℚ → Prop} (hc : Compared cost limit data s k s' k')
    (hself : NoSelfLink s) : NoSelfLink s' := by
  intro g d n' hn' l' hl'
  obtain ⟨n, hn, hN⟩ := Alike.node hc hn'
  obtain ⟨l, hl, e, -⟩ := forall₂_mem_right hN.links hl'
  rw [← e]
  exact hself g d n hn l hl

theorem OneStorage.compared {cost limit data : ℚ → ℚ → Prop} (hc : Compared cost limit data s k s' k')
    (h1 : OneStorage s) : OneStorage s' := by
  intro g d n' hn'
  obtain ⟨n, hn, hN⟩ := Alike.node hc hn'
  rw [← hN.storages.length_eq]
  exact h1 g d n hn

/-! ### Deciding comparisons of concrete studies -/

def decForall₂ {α β : Type} (R : α → β → Prop) [∀ a b, Decidable (R a b)] :
    ∀ (l : List α) (l' : List β), Decidable (List.Forall₂ R l l')
  | [], [] => .isTrue .nil
  | [], _ :: _ => .isFalse (by intro h; cases h)
  | _ :: _, [] => .isFalse (by intro h; cases h)
  | a :: l, b :: l' =>
    have := decForall₂ R l l'
    decidable_of_iff (R a b ∧ List.Forall₂ R l l') List.forall₂_cons.symm

instance {α β : Type} (R : α → β → Prop) [∀ a b, Decidable (R a b)] (l : List α) (l' : List β) :
    Decidable (List.Forall₂ R l l') := decForall₂ R l l'

instance (R : ℚ → ℚ → Prop) [∀ a b, Decidable (R a b)] (v v' : NumVal) : Decidable (Series h k k' R v v') :=
  inferInstanceAs (Decidable (∀ t < h, _))

instance (R : ℚ → ℚ → Prop) [∀ a b, Decidable (R a b)] (v v' : ConvField) : Decidable (Fields h k k' R v v') :=
  inferInstanceAs (Decidable (∀ t < h, _))

instance (cost limit data : ℚ → ℚ → Prop) [∀ a b, Decidable (cost a b)] [∀ a b, Decidable (limit a b)]
    [∀ a b, Decidable (data a b)] (n n' : InputNode) : Decidable (NodeCmp h k k' cost limit data n n') :=
  decidable_of_iff (_ ∧ _ ∧ _ ∧ _) ⟨fun h => ⟨h.1, h.2.1, h.2.2.1, h.2.2.2⟩, fun h => ⟨h.1, h.2, h.3, h.4⟩⟩

instance (cost limit : ℚ → ℚ → Prop) [∀ a b, Decidable (cost a b)] [∀ a b, Decidable (limit a b)]
    (c c' : Converter) : Decidable (ConverterCmp h k k' cost limit c c') :=
  decidable_of_iff (_ ∧ _ ∧ _ ∧ _ ∧ _)
    ⟨fun h => ⟨h.1, h.2.1, h.2.2.1, h.2.2.2.1, h.2.2.2.2⟩, fun h => ⟨h.1, h.2, h.3, h.4, h.5⟩⟩

instance (cost limit data : ℚ → ℚ → Prop) [∀ a b, Decidable (cost a b)] [∀ a b, Decidable (limit a b)]
    [∀ a b, Decidable (data a b)] (s s' : Study) (k k' : ℕ) : Decidable (Compared cost limit data s k s' k') :=
  decidable_of_iff (_ ∧ _ ∧ _) ⟨fun h => ⟨h.1, h.2.1, h.2.2⟩, fun h => ⟨h.1, h.2, h.3⟩⟩

end Hadar
