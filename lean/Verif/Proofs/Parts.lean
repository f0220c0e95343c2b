import Verif.Proofs.Sensitivity

/-!
# Parts of a study that do not interact: replacing the dispatch in one of them
-/

namespace Hadar

open Spec Classical

theorem forall₂_mem_left {α β : Type} {R : α → β → Prop} {l : List α} {l' : List β} (h : List.Forall₂ R l l') {a : α}
    (ha : a ∈ l) : ∃ b ∈ l', R a b := forall₂_mem_right h.flip ha

theorem forall₂_get_left {α β : Type} {R : α → β → Prop} {l : List α} {l' : List β} (h : List.Forall₂ R l l') {i : ℕ}
    {a : α} (ha : l[i]? = some a) : ∃ b, l'[i]? = some b ∧ R a b := forall₂_get_right h.flip ha

section

variable {N : String → String → InputNode → InputNode → Prop} {C : String → Converter → Converter → Prop}
  {s s' : Study}

theorem Alike.node_left (h : Alike N C s s') {g d : String} {n : InputNode} (hn : HasNode s g d n) :
    ∃ n', HasNode s' g d n' ∧ N g d n n' := by
  obtain ⟨net, hg, hd⟩ := hn
  obtain ⟨⟨g0, net'⟩, hg0, e, hnet⟩ := forall₂_mem_left h.networks hg
  obtain ⟨⟨d0, n'⟩, hd0, e', hN⟩ := forall₂_mem_left hnet hd
  dsimp only at e e' hd0
  subst e e'
  exact ⟨n', ⟨net', hg0, hd0⟩, hN⟩

theorem Alike.conv_left (h : Alike N C s s') {p : String × Converter} (hp : p ∈ s.converters) :
    ∃ p' ∈ s'.converters, p.1 = p'.1 ∧ C p.1 p.2 p'.2 := by
  obtain ⟨p', hp', e, hC⟩ := forall₂_mem_left h.converters hp
  exact ⟨p', hp', e, hC⟩

end

/-- `E` in the part, `D` elsewhere -/
noncomputable def splice (P : Part) (E D : Dispatch) : Dispatch where
  lol g d i t := if P.nodes g d t then E.lol g d i t else D.lol g d i t
  prod g d i t := if P.nodes g d t then E.prod g d i t else D.prod g d i t
  cap g d i t := if P.nodes g d t then E.cap g d i t else D.cap g d i t
  fin g d i t := if P.nodes g d t then E.fin g d i t else D.fin g d i t
  fout g d i t := if P.nodes g d t then E.fout g d i t else D.fout g d i t
  link g d i t := if P.nodes g d t then E.link g d i t else D.link g d i t
  convSrc c p t := if P.converters c t then E.convSrc c p t else D.convSrc c p t
  convDest c t := if P.converters c t then E.convDest c t else D.convDest c t

variable {P : Part} {s s' : Study} {k k' : ℕ} {D E : Dispatch}

theorem splice_bounds (hsame : SamePart P s k s' k') (hD : Bounds s k D) (hE : Bounds s' k' E) :
    Bounds s k (splice P E D) where
  consumptions := fun g d n hn i c hc t ht => by
    simp only [splice]
    split_ifs with hP
    · obtain ⟨n', hn', hN⟩ := Alike.node_left hsame hn
      obtain ⟨c', hc', -, h⟩ := forall₂_get_left hN.consumptions hc
      rw [h t ht hP]
      exact hE.consumptions g d n' hn' i c' hc' t (by rw [← Alike.horizon hsame]; exact ht)
    · exact hD.consumptions g d n hn i c hc t ht
  productions := fun g d n hn i c hc t ht => by
    simp only [splice]
    split_ifs with hP
    · obtain ⟨n', hn', hN⟩ := Alike.node_left hsame hn
      obtain ⟨c', hc', -, h⟩ := forall₂_get_left hN.productions hc
      rw [h t ht hP]
      exact hE.productions g d n' hn' i c' hc' t (by rw [← Alike.horizon hsame]; exact ht)
    · exact hD.productions g d n hn i c hc t ht
  storages := fun g d n hn i c hc t ht => by
    simp only [splice]
    by_cases hP : P.nodes g d t
    · simp only [if_pos hP]
      obtain ⟨n', hn', hN⟩ := Alike.node_left hsame hn
      obtain ⟨c', hc', h1, h2, h3, -⟩ := forall₂_get_left hN.storages hc
      rw [h1 t ht hP, h2 t ht hP, h3 t ht hP]
      exact hE.storages g d n' hn' i c' hc' t (by rw [← Alike.horizon hsame]; exact ht)
    · simp only [if_neg hP]
      exact hD.storages g d n hn i c hc t ht
  links := fun g d n hn i c hc t ht => by
    simp only [splice]
    split_ifs with hP
    · obtain ⟨n', hn', hN⟩ := Alike.node_left hsame hn
      obtain ⟨c', hc', -, -, h⟩ := forall₂_get_left hN.links hc
      rw [h t ht hP]
      exact hE.links g d n' hn' i c' hc' t (by rw [← Alike.horizon hsame]; exact ht)
    · exact hD.links g d n hn i c hc t ht
  convSrc := fun p hp g d r hr t ht => by
    simp only [splice]
    split_ifs with hP
    · obtain ⟨p', hp', e, hC⟩ := Alike.conv_left hsame hp
      obtain ⟨⟨key, r'⟩, hq, e', hs⟩ := forall₂_mem_left hC.sources hr
      dsimp only at e' hs
      subst e'
      rw [hs t ht hP, hC.max t ht hP, e]
      exact hE.convSrc p' hp' g d r' hq t (by rw [← Alike.horizon hsame]; exact ht)
    · exact hD.convSrc p hp g d r hr t ht
  convDest := fun p hp t ht => by
    simp only [splice]
    split_ifs with hP
    · obtain ⟨p', hp', e, hC⟩ := Alike.conv_left hsame hp
      rw [hC.max t ht hP, e]
      exact hE.convDest p' hp' t (by rw [← Alike.horizon hsame]; exact ht)
    · exact hD.convDest p hp t ht

theorem splice_imports_in (hcl : P.Closed s) (hsame : SamePart P s k s' k') {g d : String} {t : ℕ}
    (ht : t < s.horizon) (hP : P.nodes g d t) : imports s (splice P E D) g d t = imports s' E g d t := by
  unfold imports
  rw [sumL_filter, sumL_filter]
  apply sumL_rel (Alike.networks hsame)
  rintro ⟨g1, net⟩ hg1 ⟨g2, net'⟩ _ ⟨e, hnet⟩
  dsimp only at e hnet ⊢
  subst e
  by_cases hg : g1 = g
  · subst hg
    simp only [decide_true, if_true]
    apply sumL_rel hnet
    rintro ⟨d1, n⟩ hd1 ⟨d2, n'⟩ _ ⟨e, hN⟩
    dsimp only at e hN ⊢
    subst e
    apply sumI_rel hN.links
    rintro i l l' hl - ⟨e, -⟩
    rw [← e]
    split_ifs with hd
    · have := (hcl.links g1 d1 n ⟨net, hg1, hd1⟩ l (List.mem_of_getElem? hl) t ht).mpr (hd ▸ hP)
      simp only [splice, if_pos this]
    · rfl
  · simp [hg]

theorem splice_imports_out (hcl : P.Closed s) {g d : String} {t : ℕ}
    (ht : t < s.horizon) (hP : ¬ P.nodes g d t) : imports s (splice P E D) g d t = imports s D g d t := by
  unfold imports
  apply sumL_congr
  rintro ⟨g1, net⟩ hg1
  rw [List.mem_filter, decide_eq_true_eq] at hg1
  obtain ⟨hg1, hg⟩ := hg1
  dsimp only at hg
  subst hg
  apply sumL_congr
  rintro ⟨d1, n⟩ hd1
  apply sumI_congr
  intro l i hl
  dsimp only
  split_ifs with hd
  · have : ¬ P.nodes g1 d1 t := fun h => hP (hd ▸
      (hcl.links g1 d1 n ⟨net, hg1, hd1⟩ l (List.mem_of_getElem? hl) t ht).mp h)
    simp only [splice, if_neg this]
  · rfl

theorem splice_from_in (hcl : P.Closed s) (hsame : SamePart P s k s' k') {g d : String} {t : ℕ}
    (ht : t < s.horizon) (hP : P.nodes g d t) : fromConverters s (splice P E D) g d t = fromConverters s' E g d t := by
  unfold fromConverters
  apply sumL_rel (Alike.converters hsame)
  rintro p hp p' - ⟨e, hC⟩
  rw [hC.destNetwork, hC.destNode]
  split_ifs with h
  · have := (hcl.dest p hp t ht).mpr (by rw [hC.destNetwork, hC.destNode, h.1, h.2]; exact hP)
    simp only [splice, if_pos this]
    rw [e]
  · rfl

theorem splice_from_out (hcl : P.Closed s) {g d : String} {t : ℕ}
    (ht : t < s.horizon) (hP : ¬ P.nodes g d t) : fromConverters s (splice P E D) g d t = fromConverters s D g d t := by
  unfold fromConverters
  apply sumL_congr
  intro p hp
  split_ifs with h
  · have : ¬ P.converters p.1 t := fun hc => hP (by rw [← h.1, ← h.2]; exact (hcl.dest p hp t ht).mp hc)
    simp only [splice, if_neg this]
  · rfl

theorem splice_to_in (hcl : P.Closed s) (hsame : SamePart P s k s' k') {g d : String} {t : ℕ}
    (ht : t < s.horizon) (hP : P.nodes g d t) : toConverters s (splice P E D) g d t = toConverters s' E g d t := by
  unfold toConverters
  apply sumL_rel (Alike.converters hsame)
  rintro p hp p' - ⟨e, hC⟩
  apply sumL_rel hC.sources
  rintro ⟨key, r⟩ hq ⟨key', r'⟩ - ⟨e', -⟩
  dsimp only at e' ⊢
  subst e'
  split_ifs with h
  · subst h
    have := (hcl.sources p hp g d r hq t ht).mpr hP
    simp only [splice, if_pos this]
    rw [e]
  · rfl

theorem splice_to_out (hcl : P.Closed s) {g d : String} {t : ℕ}
    (ht : t < s.horizon) (hP : ¬ P.nodes g d t) : toConverters s (splice P E D) g d t = toConverters s D g d t := by
  unfold toConverters
  apply sumL_congr
  intro p hp
  apply sumL_congr
  rintro ⟨key, r⟩ hq
  dsimp only
  split_ifs with h
  · subst h
    have : ¬ P.converters p.1 t := fun hc => hP ((hcl.sources p hp g d r hq t ht).mp hc)
    simp only [splice, if_neg this]
  · rfl

theorem splice_feasible (hcl : P.Closed s) (hsame : SamePart P s k s' k') (hD : CodeFeasible s k D)
    (hE : CodeFeasible s' k' E) : CodeFeasible s k (splice P E D) where
  bounds := splice_bounds hsame hD.bounds hE.bounds
  balance := fun g d n hn t ht => by
    by_cases hP : P.nodes g d t
    · obtain ⟨n', hn', hN⟩ := Alike.node_left hsame hn
      have e := hE.balance g d n' hn' t (by rw [← Alike.horizon hsame]; exact ht)
      have h1 : incoming s (splice P E D) g d n t = incoming s' E g d n' t := by
        unfold incoming
        rw [splice_imports_in hcl hsame ht hP, splice_from_in hcl hsame ht hP,
          sumI_rel hN.productions (g := fun _ i => E.prod g d i t) (fun _ _ _ _ _ _ => by simp only [splice, if_pos hP]),
          sumI_rel hN.storages (g := fun _ i => E.fout g d i t) (fun _ _ _ _ _ _ => by simp only [splice, if_pos hP])]
      have h2 : outgoing s k (splice P E D) g d n t = outgoing s' k' E g d n' t := by
        unfold outgoing
        rw [splice_to_in hcl hsame ht hP,
          sumI_rel hN.storages (g := fun _ i => E.fin g d i t) (fun _ _ _ _ _ _ => by simp only [splice, if_pos hP]),
          sumI_rel hN.links (g := fun _ i => E.link g d i t) (fun _ _ _ _ _ _ => by simp only [splice, if_pos hP]),
          sumI_rel hN.consumptions (g := fun (c : Consumption) i => val c.quantity k' t - E.lol g d i t) (by
            rintro i c c' - - ⟨-, h⟩
            simp only [splice, if_pos hP]
            rw [h t ht hP])]
      have h3 : selfFlow (splice P E D) g d n t = selfFlow E g d n' t := by
        unfold selfFlow
        apply sumI_rel hN.links
        rintro i l l' - - ⟨e, -⟩
        simp only [splice, if_pos hP, e]
      rw [h1, h2, h3, e]
    · have e := hD.balance g d n hn t ht
      have h1 : incoming s (splice P E D) g d n t = incoming s D g d n t := by
        unfold incoming
        rw [splice_imports_out hcl ht hP, splice_from_out hcl ht hP]
        simp only [splice, if_neg hP]
      have h2 : outgoing s k (splice P E D) g d n t = outgoing s k D g d n t := by
        unfold outgoing
        rw [splice_to_out hcl ht hP]
        simp only [splice, if_neg hP]
      have h3 : selfFlow (splice P E D) g d n t = selfFlow D g d n t := by
        unfold selfFlow
        simp only [splice, if_neg hP]
      rw [h1, h2, h3, e]
  storages := fun g d n hn c hc t ht => by
    have hne : n.storages ≠ [] := by rintro h; rw [h] at hc; cases hc
    by_cases hP : P.nodes g d t
    · obtain ⟨n', hn', hN⟩ := Alike.node_left hsame hn
      have hc0 : n.storages[0]? = some c := by rw [← List.head?_eq_getElem?]; exact hc
      obtain ⟨c', hc', -, -, -, -, h5, h6⟩ := forall₂_get_left hN.storages hc0
      have e := hE.storages g d n' hn' c' (by rw [List.head?_eq_getElem?]; exact hc') t
        (by rw [← Alike.horizon hsame]; exact ht)
      unfold Evolves at e ⊢
      simp only [splice, if_pos hP]
      rw [h6 t ht hP, e]
      cases t with
      | zero => simp only [levelBefore]; rw [h5 hP]
      | succ t =>
        have := (hcl.storages g d n hn hne (t + 1) ht t (by omega)).mp hP
        simp only [levelBefore, if_pos this]
    · have e := hD.storages g d n hn c hc t ht
      unfold Evolves at e ⊢
      simp only [splice, if_neg hP]
      rw [e]
      cases t with
      | zero => rfl
      | succ t =>
        have : ¬ P.nodes g d t := fun h => hP ((hcl.storages g d n hn hne (t + 1) ht t (by omega)).mpr h)
        simp only [levelBefore, if_neg this]
  ratios := fun p hp g d r hr t ht => by
    by_cases hP : P.converters p.1 t
    · obtain ⟨p', hp', e, hC⟩ := Alike.conv_left hsame hp
      obtain ⟨⟨key, r'⟩, hq, e', hs⟩ := forall₂_mem_left hC.sources hr
      dsimp only at e' hs
      subst e'
      simp only [splice, if_pos hP]
      rw [hs t ht hP, e]
      exact hE.ratios p' hp' g d r' hq t (by rw [← Alike.horizon hsame]; exact ht)
    · simp only [splice, if_neg hP]
      exact hD.ratios p hp g d r hr t ht

/-- the rest of the study -/
def Part.rest (P : Part) : Part := ⟨fun g d t => ¬ P.nodes g d t, fun c t => ¬ P.converters c t⟩

theorem cost_split (P : Part) (s : Study) (k : ℕ) (D : Dispatch) :
    cost s k D = costIn P s k D + costIn (Part.rest P) s k D := by
  unfold cost costIn
  rw [← sumL_add]
  apply sumL_congr
  intro t _
  have e1 : (sumL s.networks fun p => sumL p.2.nodes fun q => nodeCost k D p.1 q.1 q.2 t) =
      (sumL s.networks fun p => sumL p.2.nodes fun q => if P.nodes p.1 q.1 t then nodeCost k D p.1 q.1 q.2 t else 0) +
      sumL s.networks fun p => sumL p.2.nodes fun q =>
        if (Part.rest P).nodes p.1 q.1 t then nodeCost k D p.1 q.1 q.2 t else 0 := by
    rw [← sumL_add]
    apply sumL_congr
    intro p _
    rw [← sumL_add]
    apply sumL_congr
    intro q _
    by_cases h : P.nodes p.1 q.1 t <;> simp [Part.rest, h]
  have e2 : (sumL s.converters fun p => fval p.2.cost k t * D.convDest p.1 t) =
      (sumL s.converters fun p => if P.converters p.1 t then fval p.2.cost k t * D.convDest p.1 t else 0) +
      sumL s.converters fun p =>
        if (Part.rest P).converters p.1 t then fval p.2.cost k t * D.convDest p.1 t else 0 := by
    rw [← sumL_add]
    apply sumL_congr
    intro p _
    by_cases h : P.converters p.1 t <;> simp [Part.rest, h]
  rw [e1, e2]
  ring

theorem costIn_splice (hsame : SamePart P s k s' k') :
    costIn P s k (splice P E D) = costIn P s' k' E := by
  unfold costIn
  rw [← Alike.horizon hsame]
  apply sumL_congr
  intro t ht
  have ht : t < s.horizon := by simpa using ht
  congr 1
  · apply sumL_rel (Alike.networks hsame)
    rintro ⟨g, net⟩ _ ⟨g', net'⟩ _ ⟨e, hnet⟩
    dsimp only at e hnet ⊢
    subst e
    apply sumL_rel hnet
    rintro ⟨d, n⟩ _ ⟨d', n'⟩ _ ⟨e, hN⟩
    dsimp only at e hN ⊢
    subst e
    split_ifs with hP
    · unfold nodeCost
      congr 1
      · congr 1
        · congr 1
          · apply sumI_rel hN.consumptions
            rintro i c c' - - ⟨h, -⟩
            simp only [splice, if_pos hP, h t ht hP]
          · apply sumI_rel hN.productions
            rintro i c c' - - ⟨h, -⟩
            simp only [splice, if_pos hP, h t ht hP]
        · apply sumI_rel hN.storages
          rintro i c c' - - ⟨-, -, -, h, -⟩
          simp only [splice, if_pos hP, h t ht hP]
      · apply sumI_rel hN.links
        rintro i c c' - - ⟨-, h, -⟩
        simp only [splice, if_pos hP, h t ht hP]
    · rfl
  · apply sumL_rel (Alike.converters hsame)
    rintro p _ p' _ ⟨e, hC⟩
    rw [← e]
    split_ifs with hP
    · simp only [splice, if_pos hP, hC.cost t ht hP]
    · rfl

theorem costIn_rest_splice : costIn (Part.rest P) s k (splice P E D) = costIn (Part.rest P) s k D := by
  unfold costIn
  apply sumL_congr
  intro t _
  congr 1
  · apply sumL_congr
    intro p _
    apply sumL_congr
    intro q _
    by_cases hP : P.nodes p.1 q.1 t
    · simp [Part.rest, hP]
    · simp only [Part.rest, hP, not_false_eq_true, if_true, nodeCost, splice, if_neg]
  · apply sumL_congr
    intro p _
    by_cases hP : P.converters p.1 t
    · simp [Part.rest, hP]
    · simp [Part.rest, hP, splice]

theorem part_least (hcl : P.Closed s) (hsame : SamePart P s k s' k') (hD : CodeFeasible s k D)
    (ho : ∀ D', CodeFeasible s k D' → cost s k D ≤ cost s k D') (hE : CodeFeasible s' k' E) :
    costIn P s k D ≤ costIn P s' k' E := by
  have h := ho _ (splice_feasible hcl hsame hD hE)
  rw [cost_split P s k D, cost_split P s k (splice P E D), costIn_splice hsame, costIn_rest_splice] at h
  linarith

theorem SamePart.refl (P : Part) (s : Study) (k : ℕ) : SamePart P s k s k where
  horizon := rfl
  networks := List.forall₂_same.mpr fun _ _ => ⟨rfl, List.forall₂_same.mpr fun _ _ => ⟨rfl, {
    consumptions := List.forall₂_same.mpr fun _ _ => ⟨fun _ _ _ => rfl, fun _ _ _ => rfl⟩
    productions := List.forall₂_same.mpr fun _ _ => ⟨fun _ _ _ => rfl, fun _ _ _ => rfl⟩
    storages := List.forall₂_same.mpr fun _ _ => ⟨fun _ _ _ => rfl, fun _ _ _ => rfl, fun _ _ _ => rfl, fun _ _ _ => rfl,
      fun _ => rfl, fun _ _ _ => rfl⟩
    links := List.forall₂_same.mpr fun _ _ => ⟨rfl, fun _ _ _ => rfl, fun _ _ _ => rfl⟩ }⟩⟩
  converters := List.forall₂_same.mpr fun _ _ => ⟨rfl, {
    sources := List.forall₂_same.mpr fun _ _ => ⟨rfl, fun _ _ _ => rfl⟩
    destNetwork := rfl
    destNode := rfl
    cost := fun _ _ _ => rfl
    max := fun _ _ _ => rfl }⟩

theorem SamePart.symm (h : SamePart P s k s' k') : SamePart P s' k' s k where
  horizon := (Alike.horizon h).symm
  networks := by
    rw [← Alike.horizon h]
    exact (Alike.networks h).flip.imp fun p q h => ⟨h.1.symm, h.2.flip.imp fun a b h' => by
      obtain ⟨e, hN⟩ := h'
      rw [← h.1, ← e]
      exact ⟨rfl, {
        consumptions := hN.consumptions.flip.imp fun _ _ h => ⟨fun t ht hP => (h.1 t ht hP).symm, fun t ht hP => (h.2 t ht hP).symm⟩
        productions := hN.productions.flip.imp fun _ _ h => ⟨fun t ht hP => (h.1 t ht hP).symm, fun t ht hP => (h.2 t ht hP).symm⟩
        storages := hN.storages.flip.imp fun _ _ h => ⟨fun t ht hP => (h.1 t ht hP).symm, fun t ht hP => (h.2.1 t ht hP).symm,
          fun t ht hP => (h.2.2.1 t ht hP).symm, fun t ht hP => (h.2.2.2.1 t ht hP).symm, fun hP => (h.2.2.2.2.1 hP).symm,
          fun t ht hP => (h.2.2.2.2.2 t ht hP).symm⟩
        links := hN.links.flip.imp fun _ _ h => ⟨h.1.symm, fun t ht hP => (h.2.1 t ht hP).symm,
          fun t ht hP => (h.2.2 t ht hP).symm⟩ }⟩⟩
  converters := by
    rw [← Alike.horizon h]
    exact (Alike.converters h).flip.imp fun p q h => by
      obtain ⟨e, hC⟩ := h
      rw [← e]
      exact ⟨rfl, {
        sources := hC.sources.flip.imp fun _ _ h => ⟨h.1.symm, fun t ht hP => (h.2 t ht hP).symm⟩
        destNetwork := hC.destNetwork.symm
        destNode := hC.destNode.symm
        cost := fun t ht hP => (hC.cost t ht hP).symm
        max := fun t ht hP => (hC.max t ht hP).symm }⟩

theorem Part.Closed.same (hcl : P.Closed s) (h : SamePart P s k s' k') : P.Closed s' where
  links := fun g d n' hn' l' hl' t ht => by
    obtain ⟨n, hn, hN⟩ := Alike.node h hn'
    obtain ⟨l, hl, e, -⟩ := forall₂_mem_right hN.links hl'
    rw [← e]
    exact hcl.links g d n hn l hl t (by rw [Alike.horizon h]; exact ht)
  storages := fun g d n' hn' hne t ht t' ht' => by
    obtain ⟨n, hn, hN⟩ := Alike.node h hn'
    refine hcl.storages g d n hn ?_ t (by rw [Alike.horizon h]; exact ht) t' (by rw [Alike.horizon h]; exact ht')
    intro e
    have := hN.storages.length_eq
    rw [e] at this
    exact hne (List.length_eq_zero_iff.mp this.symm)
  dest := fun p' hp' t ht => by
    obtain ⟨p, hp, e, hC⟩ := Alike.conv h hp'
    rw [← e, ← hC.destNetwork, ← hC.destNode]
    exact hcl.dest p hp t (by rw [Alike.horizon h]; exact ht)
  sources := fun p' hp' g d r' hr' t ht => by
    obtain ⟨p, hp, e, hC⟩ := Alike.conv h hp'
    obtain ⟨⟨key, r⟩, hq, e', -⟩ := forall₂_mem_right hC.sources hr'
    dsimp only at e'
    subst e'
    rw [← e]
    exact hcl.sources p hp g d r hq t (by rw [Alike.horizon h]; exact ht)

end Hadar
