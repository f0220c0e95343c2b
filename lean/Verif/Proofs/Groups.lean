import Verif.Spec.Groups
import Verif.Proofs.Sensitivity
import Verif.Proofs.Prices
import Verif.Proofs.Window
import Verif.Proofs.Aggregates

/-!
# Putting elements together (helper lemmas for C90)
-/

namespace Hadar

open Spec

theorem sumI_swap {α β : Type} (l : List α) (l' : List β) (f : α → ℕ → β → ℕ → ℚ) :
    (sumI l fun a i => sumI l' fun b j => f a i b j) = sumI l' fun b j => sumI l fun a i => f a i b j := by
  simp only [sumI_eq]
  exact sumL_swap _ _ _

theorem sumI_at {α : Type} (l : List α) {m : ℕ} (hm : m < l.length) (x : ℚ) : (sumI l fun _ j => if m = j then x else 0) = x := by
  have key : ∀ (l : List α) (n : ℕ), sumL (l.zipIdx n) (fun p => if m = p.2 then x else 0) = if n ≤ m ∧ m < n + l.length then x else 0 := by
    intro l
    induction l with
    | nil =>
      intro n
      rw [if_neg (by simp)]
      rfl
    | cons a l ih =>
      intro n
      have hc : sumL ((a, n) :: l.zipIdx (n + 1)) (fun p => if m = p.2 then x else 0) =
          (if m = n then x else 0) + sumL (l.zipIdx (n + 1)) (fun p => if m = p.2 then x else 0) := by simp [sumL]
      rw [List.zipIdx_cons, hc, ih]
      rw [List.length_cons]
      by_cases h : m = n
      · rw [if_pos h, if_neg (by omega), if_pos (by omega)]; ring
      · rw [if_neg h]
        by_cases h2 : n + 1 ≤ m ∧ m < n + 1 + l.length
        · rw [if_pos h2, if_pos (by omega)]; ring
        · rw [if_neg h2, if_neg (by omega)]; ring
  rw [sumI_eq, key, if_pos (by omega)]

/-- a sum by groups is the sum -/
theorem sum_groups {α β : Type} {l : List α} {l' : List β} {f : ℕ → ℕ} (hf : ∀ i a, l[i]? = some a → f i < l'.length) (x : α → ℕ → ℚ) :
    (sumI l' fun _ j => sumI l fun a i => if f i = j then x a i else 0) = sumI l x := by
  rw [sumI_swap]
  apply sumI_congr
  intro a i ha
  exact sumI_at _ (hf i a ha) _

variable {α : Type} {h k k' : ℕ} {cost quantity : α → NumVal} {f : ℕ → ℕ} {l l' : List α}

theorem Spec.Groups.lt (hg : Groups h k k' cost quantity f l l') (i : ℕ) (a : α) (ha : l[i]? = some a) : f i < l'.length := by
  obtain ⟨b, hb, -⟩ := hg.into i a ha
  exact (List.getElem?_eq_some_iff.mp hb).1

/-- what the groups cost is what their members cost -/
theorem Spec.Groups.sum_cost (hg : Groups h k k' cost quantity f l l') {t : ℕ} (ht : t < h) (x : ℕ → ℚ) :
    (sumI l' fun b j => val (cost b) k' t * sumI l fun _ i => if f i = j then x i else 0) =
      sumI l fun a i => val (cost a) k t * x i := by
  rw [← sum_groups hg.lt]
  apply sumI_congr
  intro b j hb
  rw [← sumI_mul]
  apply sumI_congr
  intro a i ha
  split_ifs with e
  · obtain ⟨b', hb', hc⟩ := hg.into i a ha
    rw [e, hb] at hb'
    cases hb'
    rw [hc t ht]
  · simp

/-- quantities add up -/
theorem Spec.Groups.sum_quantity (hg : Groups h k k' cost quantity f l l') {t : ℕ} (ht : t < h) :
    (sumI l' fun b _ => val (quantity b) k' t) = sumI l fun a _ => val (quantity a) k t := by
  rw [← sum_groups hg.lt]
  apply sumI_congr
  intro b j hb
  exact hg.total j b hb t ht

/-- the flow of a group shared between its members in proportion of their quantities -/
def shared (quantity : α → NumVal) (k k' : ℕ) (f : ℕ → ℕ) (l l' : List α) (y : ℕ → ℚ) (t i : ℕ) : ℚ :=
  match l[i]?, l'[f i]? with
  | some a, some b => if val (quantity b) k' t = 0 then 0 else y (f i) * val (quantity a) k t / val (quantity b) k' t
  | _, _ => 0

variable {y : ℕ → ℚ} {t : ℕ}

theorem shared_bounds (hg : Groups h k k' cost quantity f l l') (hq : ∀ a ∈ l, 0 ≤ val (quantity a) k t)
    (hy : ∀ j b, l'[j]? = some b → 0 ≤ y j ∧ y j ≤ val (quantity b) k' t) {i : ℕ} {a : α} (ha : l[i]? = some a) :
    0 ≤ shared quantity k k' f l l' y t i ∧ shared quantity k k' f l l' y t i ≤ val (quantity a) k t := by
  obtain ⟨b, hb, -⟩ := hg.into i a ha
  obtain ⟨h0, h1⟩ := hy _ b hb
  have hqa := hq a (mem_of_getElem?_some ha)
  simp only [shared, ha, hb]
  split_ifs with e
  · exact ⟨le_refl _, hqa⟩
  · have hpos : 0 < val (quantity b) k' t := lt_of_le_of_ne (le_trans h0 h1) (Ne.symm e)
    refine ⟨div_nonneg (mul_nonneg h0 hqa) hpos.le, ?_⟩
    rw [div_le_iff₀ hpos, mul_comm]
    exact mul_le_mul_of_nonneg_left h1 hqa

/-- what members of a group get is the flow of the group -/
theorem shared_group (hg : Groups h k k' cost quantity f l l') (ht : t < h)
    (hy : ∀ j b, l'[j]? = some b → 0 ≤ y j ∧ y j ≤ val (quantity b) k' t) {j : ℕ} {b : α} (hb : l'[j]? = some b) :
    (sumI l fun _ i => if f i = j then shared quantity k k' f l l' y t i else 0) = y j := by
  obtain ⟨h0, h1⟩ := hy _ b hb
  have key : (sumI l fun _ i => if f i = j then shared quantity k k' f l l' y t i else 0) =
      sumI l fun a i => (if val (quantity b) k' t = 0 then 0 else y j / val (quantity b) k' t) *
        (if f i = j then val (quantity a) k t else 0) := by
    apply sumI_congr
    intro a i ha
    split_ifs with e e'
    · simp [shared, ha, e, hb, e']
    · simp only [shared, ha, e, hb, e', if_false]
      ring
    · simp
    · simp
  rw [key, sumI_mul, ← hg.total j b hb t ht]
  split_ifs with e
  · rw [e] at h1
    rw [zero_mul]
    linarith
  · field_simp

/-- hence the sums are the same -/
theorem shared_sum (hg : Groups h k k' cost quantity f l l') (ht : t < h)
    (hy : ∀ j b, l'[j]? = some b → 0 ≤ y j ∧ y j ≤ val (quantity b) k' t) :
    (sumI l fun _ i => shared quantity k k' f l l' y t i) = sumI l' fun _ j => y j := by
  rw [← sum_groups hg.lt]
  apply sumI_congr
  intro b j hb
  exact shared_group hg ht hy hb

theorem shared_cost (hg : Groups h k k' cost quantity f l l') (ht : t < h)
    (hy : ∀ j b, l'[j]? = some b → 0 ≤ y j ∧ y j ≤ val (quantity b) k' t) :
    (sumI l fun a i => val (cost a) k t * shared quantity k k' f l l' y t i) = sumI l' fun b j => val (cost b) k' t * y j := by
  rw [← hg.sum_cost ht]
  apply sumI_congr
  intro b j hb
  rw [shared_group hg ht hy hb]

/-! ### Dispatches that differ only by consumptions and productions -/

variable {s s' : Study} {D E : Dispatch}

/-- same storages, links and converters -/
def RestAlike (s : Study) (k : ℕ) (s' : Study) (k' : ℕ) : Prop :=
  Alike (fun _ _ => SameRest s.horizon k k') (fun _ => ConverterCmp s.horizon k k' Eq Eq) s s'

theorem RestAlike.flip (hr : RestAlike s k s' k') : RestAlike s' k' s k where
  horizon := (Alike.horizon hr).symm
  networks := by
    rw [← Alike.horizon hr]
    exact (Alike.networks hr).flip.imp fun _ _ h => ⟨h.1.symm, h.2.flip.imp fun _ _ h => ⟨h.1.symm, {
      storages := h.2.storages.flip.imp fun _ _ h => ⟨fun t ht => (h.1 t ht).symm, fun t ht => (h.2.1 t ht).symm,
        fun t ht => (h.2.2.1 t ht).symm, fun t ht => (h.2.2.2.1 t ht).symm, h.2.2.2.2.1.symm, fun t ht => (h.2.2.2.2.2 t ht).symm⟩
      links := h.2.links.flip.imp fun _ _ h => ⟨h.1.symm, fun t ht => (h.2.1 t ht).symm, fun t ht => (h.2.2 t ht).symm⟩ }⟩⟩
  converters := by
    rw [← Alike.horizon hr]
    exact (Alike.converters hr).flip.imp fun _ _ h => ⟨h.1.symm, {
      sources := h.2.sources.flip.imp fun _ _ h => ⟨h.1.symm, fun t ht => (h.2 t ht).symm⟩
      destNetwork := h.2.destNetwork.symm
      destNode := h.2.destNode.symm
      cost := fun t ht => (h.2.cost t ht).symm
      max := fun t ht => (h.2.max t ht).symm }⟩

/-- `E` has the storages, links and converters of `D` -/
structure SameOthers (D E : Dispatch) : Prop where
  cap : E.cap = D.cap
  fin : E.fin = D.fin
  fout : E.fout = D.fout
  link : E.link = D.link
  convSrc : E.convSrc = D.convSrc
  convDest : E.convDest = D.convDest

theorem SameOthers.symm (h : SameOthers D E) : SameOthers E D :=
  ⟨h.1.symm, h.2.symm, h.3.symm, h.4.symm, h.5.symm, h.6.symm⟩

/-- consumptions and productions of all nodes get and give as much in both -/
def SameSums (s : Study) (k : ℕ) (D : Dispatch) (s' : Study) (k' : ℕ) (E : Dispatch) : Prop :=
  ∀ g d n n', HasNode s g d n → HasNode s' g d n' → ∀ t < s.horizon,
    (sumI n.productions fun _ i => D.prod g d i t) = (sumI n'.productions fun _ i => E.prod g d i t) ∧
    (sumI n.consumptions fun c i => val c.quantity k t - D.lol g d i t) =
      sumI n'.consumptions fun c i => val c.quantity k' t - E.lol g d i t

theorem RestAlike.codeFeasible (hr : RestAlike s k s' k') (ho : SameOthers D E) (hs : SameSums s k D s' k' E)
    (hc : ∀ g d n, HasNode s' g d n → ∀ i c, n.consumptions[i]? = some c → ∀ t < s'.horizon,
      0 ≤ E.lol g d i t ∧ E.lol g d i t ≤ val c.quantity k' t)
    (hp : ∀ g d n, HasNode s' g d n → ∀ i c, n.productions[i]? = some c → ∀ t < s'.horizon,
      0 ≤ E.prod g d i t ∧ E.prod g d i t ≤ val c.quantity k' t)
    (hf : CodeFeasible s k D) : CodeFeasible s' k' E where
  bounds := {
    consumptions := hc
    productions := hp
    storages := fun g d n' hn' i c' hc' t ht => by
      obtain ⟨n, hn, hN⟩ := Alike.node hr hn'
      obtain ⟨c, hc, h1, h2, h3, -⟩ := forall₂_get_right hN.storages hc'
      have ht' : t < s.horizon := by rw [Alike.horizon hr]; exact ht
      rw [ho.cap, ho.fin, ho.fout, ← h1 t ht', ← h2 t ht', ← h3 t ht']
      exact hf.bounds.storages g d n hn i c hc t ht'
    links := fun g d n' hn' i c' hc' t ht => by
      obtain ⟨n, hn, hN⟩ := Alike.node hr hn'
      obtain ⟨c, hc, -, -, h2⟩ := forall₂_get_right hN.links hc'
      have ht' : t < s.horizon := by rw [Alike.horizon hr]; exact ht
      rw [ho.link, ← h2 t ht']
      exact hf.bounds.links g d n hn i c hc t ht'
    convSrc := fun p' hp' g d r' hr' t ht => by
      obtain ⟨p, hp, e, hC⟩ := Alike.conv hr hp'
      obtain ⟨⟨key, r⟩, hq, e', hs⟩ := forall₂_mem_right hC.sources hr'
      dsimp only at e' hs
      subst e'
      have ht' : t < s.horizon := by rw [Alike.horizon hr]; exact ht
      rw [ho.convSrc, ← e, ← hs t ht', ← hC.max t ht']
      exact hf.bounds.convSrc p hp g d r hq t ht'
    convDest := fun p' hp' t ht => by
      obtain ⟨p, hp, e, hC⟩ := Alike.conv hr hp'
      have ht' : t < s.horizon := by rw [Alike.horizon hr]; exact ht
      rw [ho.convDest, ← e, ← hC.max t ht']
      exact hf.bounds.convDest p hp t ht' }
  balance := fun g d n' hn' t ht => by
    obtain ⟨n, hn, hN⟩ := Alike.node hr hn'
    have ht' : t < s.horizon := by rw [Alike.horizon hr]; exact ht
    have e := hf.balance g d n hn t ht'
    obtain ⟨e1, e2⟩ := hs g d n n' hn hn' t ht'
    have i1 : imports s' E g d t = imports s D g d t := by
      have := imports_alike (D := D) (b := 1) hr (fun _ _ n n' h => h.links.imp fun _ _ h => h.1) g d t
      rw [one_mul, Dispatch.scale_one] at this
      rw [← this]
      unfold imports
      rw [ho.link]
    have i2 : fromConverters s' E g d t = fromConverters s D g d t := by
      have := fromConverters_alike (D := D) (b := 1) hr (fun _ c c' h => ⟨h.destNetwork, h.destNode⟩) g d t
      rw [one_mul, Dispatch.scale_one] at this
      rw [← this]
      unfold fromConverters
      rw [ho.convDest]
    have i3 : toConverters s' E g d t = toConverters s D g d t := by
      have := toConverters_alike (D := D) (b := 1) hr (fun _ c c' h => h.sources.imp fun _ _ h => h.1) g d t
      rw [one_mul, Dispatch.scale_one] at this
      rw [← this]
      unfold toConverters
      rw [ho.convSrc]
    have i4 : selfFlow E g d n' t = selfFlow D g d n t := by
      unfold selfFlow
      rw [ho.link]
      symm
      apply sumI_rel hN.links
      rintro i l l' - - ⟨e, -⟩
      rw [e]
    unfold incoming outgoing at e ⊢
    rw [i1, i2, i3, i4, ← e1, ← e2, ho.fout, ho.fin, ho.link,
      ← sumI_rel hN.storages (f := fun _ i => D.fout g d i t) (fun _ _ _ _ _ _ => rfl),
      ← sumI_rel hN.storages (f := fun _ i => D.fin g d i t) (fun _ _ _ _ _ _ => rfl),
      ← sumI_rel hN.links (f := fun _ i => D.link g d i t) (fun _ _ _ _ _ _ => rfl)]
    exact e
  storages := fun g d n' hn' c' hc' t ht => by
    obtain ⟨n, hn, hN⟩ := Alike.node hr hn'
    have ht' : t < s.horizon := by rw [Alike.horizon hr]; exact ht
    rw [List.head?_eq_getElem?] at hc'
    obtain ⟨c, hc, -, -, -, -, h5, h6⟩ := forall₂_get_right hN.storages hc'
    have e := hf.storages g d n hn c (by rw [List.head?_eq_getElem?]; exact hc) t ht'
    unfold Evolves at e ⊢
    rw [← h6 t ht', ← h5, ho.fin, ho.fout, ho.cap]
    cases t with
    | zero => exact e
    | succ t =>
      simp only [levelBefore] at e ⊢
      rw [ho.cap]
      exact e
  ratios := fun p' hp' g d r' hr' t ht => by
    obtain ⟨p, hp, e, hC⟩ := Alike.conv hr hp'
    obtain ⟨⟨key, r⟩, hq, e', hs⟩ := forall₂_mem_right hC.sources hr'
    dsimp only at e' hs
    subst e'
    have ht' : t < s.horizon := by rw [Alike.horizon hr]; exact ht
    rw [ho.convSrc, ho.convDest, ← e, ← hs t ht']
    exact hf.ratios p hp g d r hq t ht'

theorem RestAlike.total_cost (hr : RestAlike s k s' k') (ho : SameOthers D E)
    (hc : ∀ g d n n', HasNode s g d n → HasNode s' g d n' → ∀ t < s.horizon,
      (sumI n.productions fun c i => val c.cost k t * D.prod g d i t) = (sumI n'.productions fun c i => val c.cost k' t * E.prod g d i t) ∧
      (sumI n.consumptions fun c i => val c.cost k t * D.lol g d i t) =
        sumI n'.consumptions fun c i => val c.cost k' t * E.lol g d i t) : Spec.cost s' k' E = Spec.cost s k D := by
  unfold Spec.cost
  rw [← Alike.horizon hr]
  apply sumL_congr
  intro t ht
  have ht : t < s.horizon := by simpa using ht
  congr 1
  · symm
    apply sumL_rel (Alike.networks hr)
    rintro ⟨g, net⟩ hg ⟨g', net'⟩ hg' ⟨e, hnet⟩
    dsimp only at e hnet ⊢
    subst e
    apply sumL_rel hnet
    rintro ⟨d, n⟩ hd ⟨d', n'⟩ hd' ⟨e, hN⟩
    dsimp only at e hN ⊢
    subst e
    obtain ⟨e1, e2⟩ := hc g d n n' ⟨net, hg, hd⟩ ⟨net', hg', hd'⟩ t ht
    unfold nodeCost
    rw [e1, e2, ho.cap, ho.link]
    congr 1
    · congr 1
      apply sumI_rel hN.storages
      rintro i c c' - - ⟨-, -, -, h, -⟩
      rw [h t ht]
    · apply sumI_rel hN.links
      rintro i c c' - - ⟨-, h, -⟩
      rw [h t ht]
  · symm
    apply sumL_rel (Alike.converters hr)
    rintro p hp p' - ⟨e, hC⟩
    rw [← e, hC.cost t ht, ho.convDest]

/-! ### Putting together -/

variable {C P : String → String → ℕ → ℕ}

theorem Spec.PutTogether.rest (hg : PutTogether C P s k s' k') : RestAlike s k s' k' where
  horizon := Alike.horizon hg
  networks := (Alike.networks hg).imp fun _ _ h => ⟨h.1, h.2.imp fun _ _ h => ⟨h.1, h.2.rest⟩⟩
  converters := Alike.converters hg

theorem Spec.PutTogether.node (hg : PutTogether C P s k s' k') (hi' : StudyInv s) {g d : String} {n n' : InputNode} (hn : HasNode s g d n)
    (hn' : HasNode s' g d n') : NodeGroups s.horizon k k' (C g d) (P g d) n n' := by
  obtain ⟨m, hm, hN⟩ := Alike.node hg hn'
  rwa [hasNode_unique hi' hn hm]

theorem sameOthers_together (D : Dispatch) : SameOthers D (D.together C P s) := ⟨rfl, rfl, rfl, rfl, rfl, rfl⟩

theorem together_codeFeasible (hi : StudyInv s) (hg : PutTogether C P s k s' k') (hf : CodeFeasible s k D) :
    CodeFeasible s' k' (D.together C P s) := by
  refine hg.rest.codeFeasible (sameOthers_together D) ?_ ?_ ?_ hf
  · intro g d n n' hn hn' t ht
    have hN := hg.node hi hn hn'
    simp only [Dispatch.together, inNode_eq hi hn]
    refine ⟨(sum_groups hN.productions.lt _).symm, ?_⟩
    rw [sumI_sub, sumI_sub, hN.consumptions.sum_quantity ht, sum_groups hN.consumptions.lt]
  · intro g d n' hn' j c' hc' t ht
    obtain ⟨n, hn, hN⟩ := Alike.node hg hn'
    have ht' : t < s.horizon := by rw [Alike.horizon hg]; exact ht
    simp only [Dispatch.together, inNode_eq hi hn]
    have hb := hf.bounds.consumptions g d n hn
    constructor
    · apply sumI_nonneg_of
      intro i c hc
      split_ifs
      · exact (hb i c hc t ht').1
      · exact le_refl _
    · rw [hN.consumptions.total j c' hc' t ht']
      apply sumI_le
      intro c i hc
      split_ifs
      · exact (hb i c hc t ht').2
      · exact le_refl _
  · intro g d n' hn' j c' hc' t ht
    obtain ⟨n, hn, hN⟩ := Alike.node hg hn'
    have ht' : t < s.horizon := by rw [Alike.horizon hg]; exact ht
    simp only [Dispatch.together, inNode_eq hi hn]
    have hb := hf.bounds.productions g d n hn
    constructor
    · apply sumI_nonneg_of
      intro i c hc
      split_ifs
      · exact (hb i c hc t ht').1
      · exact le_refl _
    · rw [hN.productions.total j c' hc' t ht']
      apply sumI_le
      intro c i hc
      split_ifs
      · exact (hb i c hc t ht').2
      · exact le_refl _

theorem together_cost (hi : StudyInv s) (hg : PutTogether C P s k s' k') : Spec.cost s' k' (D.together C P s) = Spec.cost s k D := by
  refine RestAlike.total_cost hg.rest (sameOthers_together D) ?_
  intro g d n n' hn hn' t ht
  have hN := hg.node hi hn hn'
  simp only [Dispatch.together, inNode_eq hi hn]
  exact ⟨(hN.productions.sum_cost ht _).symm, (hN.consumptions.sum_cost ht _).symm⟩

/-- flows of groups shared between their members -/
def apart (C P : String → String → ℕ → ℕ) (s : Study) (k : ℕ) (s' : Study) (k' : ℕ) (E : Dispatch) : Dispatch :=
  { E with
    lol := fun g d i t => shared Consumption.quantity k k' (C g d) (inNode s g d).consumptions (inNode s' g d).consumptions
      (fun j => E.lol g d j t) t i
    prod := fun g d i t => shared Production.quantity k k' (P g d) (inNode s g d).productions (inNode s' g d).productions
      (fun j => E.prod g d j t) t i }

theorem sameOthers_apart (E : Dispatch) : SameOthers E (apart C P s k s' k' E) := ⟨rfl, rfl, rfl, rfl, rfl, rfl⟩

theorem apart_codeFeasible (hi : StudyInv s) (hi' : StudyInv s') (hg : PutTogether C P s k s' k') (hq : QuantitiesNonneg s k)
    (hf : CodeFeasible s' k' E) : CodeFeasible s k (apart C P s k s' k' E) := by
  have eh := Alike.horizon hg
  refine hg.rest.flip.codeFeasible (sameOthers_apart E) ?_ ?_ ?_ hf
  · intro g d n' n hn' hn t ht
    have hN := hg.node hi hn hn'
    have hb := hf.bounds
    have ht' : t < s.horizon := by rw [eh]; exact ht
    simp only [apart, inNode_eq hi hn, inNode_eq hi' hn']
    refine ⟨(shared_sum hN.productions ht' fun j b hb' => hb.productions g d n' hn' j b hb' t ht).symm, ?_⟩
    rw [sumI_sub, sumI_sub, ← hN.consumptions.sum_quantity ht',
      shared_sum hN.consumptions ht' fun j b hb' => hb.consumptions g d n' hn' j b hb' t ht]
  · intro g d n hn i c hc t ht
    obtain ⟨n', hn', -⟩ := Alike.node hg.rest.flip hn
    have hN := hg.node hi hn hn'
    simp only [apart, inNode_eq hi hn, inNode_eq hi' hn']
    exact shared_bounds hN.consumptions (fun a ha => hq.consumptions g d n hn a ha t ht)
      (fun j b hb' => hf.bounds.consumptions g d n' hn' j b hb' t (eh ▸ ht)) hc
  · intro g d n hn i c hc t ht
    obtain ⟨n', hn', -⟩ := Alike.node hg.rest.flip hn
    have hN := hg.node hi hn hn'
    simp only [apart, inNode_eq hi hn, inNode_eq hi' hn']
    exact shared_bounds hN.productions (fun a ha => hq.productions g d n hn a ha t ht)
      (fun j b hb' => hf.bounds.productions g d n' hn' j b hb' t (eh ▸ ht)) hc

theorem apart_cost (hi : StudyInv s) (hi' : StudyInv s') (hg : PutTogether C P s k s' k') (hf : CodeFeasible s' k' E) :
    Spec.cost s k (apart C P s k s' k' E) = Spec.cost s' k' E := by
  have eh := Alike.horizon hg
  refine RestAlike.total_cost hg.rest.flip (sameOthers_apart E) ?_
  intro g d n' n hn' hn t ht
  have hN := hg.node hi hn hn'
  have ht' : t < s.horizon := by rw [eh]; exact ht
  simp only [apart, inNode_eq hi hn, inNode_eq hi' hn']
  exact ⟨(shared_cost hN.productions ht' fun j b hb' => hf.bounds.productions g d n' hn' j b hb' t ht).symm,
    (shared_cost hN.consumptions ht' fun j b hb' => hf.bounds.consumptions g d n' hn' j b hb' t ht).symm⟩

/-! ### Deciding it for concrete studies -/

instance (h k k' : ℕ) (cost quantity : α → NumVal) (f : ℕ → ℕ) (l l' : List α) : Decidable (Groups h k k' cost quantity f l l') :=
  decidable_of_iff ((∀ i : Fin l.length, ∃ j : Fin l'.length, j.val = f i ∧ ∀ t < h, val (cost l'[j]) k' t = val (cost l[i]) k t) ∧
      ∀ j : Fin l'.length, ∀ t < h, val (quantity l'[j]) k' t = sumI l fun a i => if f i = j then val (quantity a) k t else 0)
    ⟨fun hh => ⟨fun i a ha => by
        obtain ⟨hi, rfl⟩ := List.getElem?_eq_some_iff.mp ha
        obtain ⟨j, hj, hc⟩ := hh.1 ⟨i, hi⟩
        exact ⟨l'[j], by rw [← hj]; simp, hc⟩,
      fun j b hb t ht => by
        obtain ⟨hj, rfl⟩ := List.getElem?_eq_some_iff.mp hb
        exact hh.2 ⟨j, hj⟩ t ht⟩,
    fun hh => ⟨fun i => by
        obtain ⟨b, hb, hc⟩ := hh.into i l[i] (by simp)
        obtain ⟨hj, rfl⟩ := List.getElem?_eq_some_iff.mp hb
        exact ⟨⟨f i, hj⟩, rfl, hc⟩,
      fun j t ht => hh.total j _ (by simp) t ht⟩⟩

instance (h k k' : ℕ) (n n' : InputNode) : Decidable (SameRest h k k' n n') :=
  decidable_of_iff (_ ∧ _) ⟨fun h => ⟨h.1, h.2⟩, fun h => ⟨h.1, h.2⟩⟩

instance (h k k' : ℕ) (C P : ℕ → ℕ) (n n' : InputNode) : Decidable (NodeGroups h k k' C P n n') :=
  decidable_of_iff (_ ∧ _ ∧ _) ⟨fun h => ⟨h.1, h.2.1, h.2.2⟩, fun h => ⟨h.1, h.2, h.3⟩⟩

instance (C P : String → String → ℕ → ℕ) (s s' : Study) (k k' : ℕ) : Decidable (PutTogether C P s k s' k') :=
  decidable_of_iff (_ ∧ _ ∧ _) ⟨fun h => ⟨h.1, h.2.1, h.2.2⟩, fun h => ⟨h.1, h.2, h.3⟩⟩

end Hadar
