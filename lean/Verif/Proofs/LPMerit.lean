import Verif.Proofs.LPScn

/-!
# Merit order: exchange arguments
-/

namespace Hadar

open Spec

theorem sumL_bump {α : Type} {l : List α} (hn : l.Nodup) {a : α} (ha : a ∈ l) {f g : α → ℚ} {e : ℚ}
    (h1 : f a = g a + e) (h2 : ∀ b ∈ l, b ≠ a → f b = g b) : sumL l f = sumL l g + e := by
  induction l with
  | nil => simp at ha
  | cons b l ih =>
    rw [List.nodup_cons] at hn
    have hc : ∀ (h : α → ℚ), sumL (b :: l) h = h b + sumL l h := by intro h; simp [sumL]
    rw [hc, hc]
    by_cases hb : b = a
    · subst hb
      rw [h1, sumL_congr (l := l) (g := g)]
      · ring
      · intro x hx
        exact h2 x (by simp [hx]) (by rintro rfl; exact hn.1 hx)
    · rw [h2 b (by simp) hb, ih hn.2 (by simpa [Ne.symm hb] using ha)
        (fun x hx => h2 x (by simp [hx]))]
      ring

theorem sumI_bump {α : Type} {l : List α} {a : α} {i : ℕ} (ha : l[i]? = some a) {f g : α → ℕ → ℚ}
    {e : ℚ} (h1 : f a i = g a i + e) (h2 : ∀ b j, j ≠ i → f b j = g b j) :
    sumI l f = sumI l g + e := by
  rw [sumI_eq, sumI_eq]
  apply sumL_bump (zipIdx_nodup l id Function.injective_id).of_map (a := (a, i)) (mem_zipIdx_iff.mpr ha) h1
  rintro ⟨b, j⟩ hb hne
  apply h2
  rintro rfl
  have := mem_zipIdx_iff.mp hb
  rw [ha] at this
  cases this
  exact hne rfl

theorem cost_bump {s : Study} (hi : StudyInv s) {k : ℕ} {D D' : Dispatch}
    (hc : D'.convDest = D.convDest) {g d : String} {n : InputNode} (hn : HasNode s g d n) {t : ℕ}
    (ht : t < s.horizon) {e : ℚ} (h1 : nodeCost k D' g d n t = nodeCost k D g d n t + e)
    (h2 : ∀ g' d' n' t', ¬ (g' = g ∧ d' = d ∧ t' = t) →
      nodeCost k D' g' d' n' t' = nodeCost k D g' d' n' t') : cost s k D' = cost s k D + e := by
  obtain ⟨net, hg, hd⟩ := hn
  unfold cost
  rw [hc]
  apply sumL_bump List.nodup_range (by simpa using ht)
  · have : (sumL s.networks fun p => sumL p.2.nodes fun q => nodeCost k D' p.1 q.1 q.2 t) =
        (sumL s.networks fun p => sumL p.2.nodes fun q => nodeCost k D p.1 q.1 q.2 t) + e := by
      apply sumL_bump hi.names.networks.of_map hg
      · apply sumL_bump (hi.names.nodes _ hg).of_map hd h1
        rintro ⟨d', n'⟩ hd' hne
        apply h2
        rintro ⟨_, h, _⟩
        dsimp only at h
        subst h
        exact hne (List.inj_on_of_nodup_map (hi.names.nodes _ hg) hd' hd rfl)
      · rintro ⟨g', net'⟩ hg' hne
        apply sumL_congr
        rintro ⟨d', n'⟩ hd'
        apply h2
        rintro ⟨h, _, _⟩
        dsimp only at h
        subst h
        exact hne (List.inj_on_of_nodup_map hi.names.networks hg' hg rfl)
    rw [this]; ring
  · intro t' _ hne
    congr 1
    apply sumL_congr
    intro p _
    apply sumL_congr
    intro q _
    exact h2 _ _ _ _ fun h => hne h.2.2

/-- one production changed -/
def bumpProd (D : Dispatch) (g d : String) (i t : ℕ) (e : ℚ) : Dispatch :=
  { D with prod := fun g' d' i' t' =>
      if g' = g ∧ d' = d ∧ i' = i ∧ t' = t then D.prod g' d' i' t' + e else D.prod g' d' i' t' }

/-- one loss of load changed -/
def bumpLol (D : Dispatch) (g d : String) (i t : ℕ) (e : ℚ) : Dispatch :=
  { D with lol := fun g' d' i' t' =>
      if g' = g ∧ d' = d ∧ i' = i ∧ t' = t then D.lol g' d' i' t' + e else D.lol g' d' i' t' }

theorem cost_bumpProd {s : Study} (hi : StudyInv s) {k : ℕ} (D : Dispatch) {g d : String}
    {n : InputNode} (hn : HasNode s g d n) {i : ℕ} {p : Production} (hp : n.productions[i]? = some p)
    {t : ℕ} (ht : t < s.horizon) (e : ℚ) :
    cost s k (bumpProd D g d i t e) = cost s k D + val p.cost k t * e := by
  apply cost_bump hi (D := D) (D' := bumpProd D g d i t e) rfl hn ht
  · unfold nodeCost
    have : (sumI n.productions fun c j => val c.cost k t * (bumpProd D g d i t e).prod g d j t) =
        (sumI n.productions fun c j => val c.cost k t * D.prod g d j t) + val p.cost k t * e := by
      apply sumI_bump hp
      · simp [bumpProd]; ring
      · intro b j hj; simp [bumpProd, hj]
    rw [this]
    simp only [bumpProd]; ring
  · intro g' d' n' t' hne
    unfold nodeCost
    have : ∀ i', (bumpProd D g d i t e).prod g' d' i' t' = D.prod g' d' i' t' := by
      intro i'
      simp only [bumpProd]
      rw [if_neg fun h => hne ⟨h.1, h.2.1, h.2.2.2⟩]
    simp only [this]
    rfl

theorem cost_bumpLol {s : Study} (hi : StudyInv s) {k : ℕ} (D : Dispatch) {g d : String}
    {n : InputNode} (hn : HasNode s g d n) {i : ℕ} {p : Consumption}
    (hp : n.consumptions[i]? = some p) {t : ℕ} (ht : t < s.horizon) (e : ℚ) :
    cost s k (bumpLol D g d i t e) = cost s k D + val p.cost k t * e := by
  apply cost_bump hi (D := D) (D' := bumpLol D g d i t e) rfl hn ht
  · unfold nodeCost
    have : (sumI n.consumptions fun c j => val c.cost k t * (bumpLol D g d i t e).lol g d j t) =
        (sumI n.consumptions fun c j => val c.cost k t * D.lol g d j t) + val p.cost k t * e := by
      apply sumI_bump hp
      · simp [bumpLol]; ring
      · intro b j hj; simp [bumpLol, hj]
    rw [this]
    simp only [bumpLol]; ring
  · intro g' d' n' t' hne
    unfold nodeCost
    have : ∀ i', (bumpLol D g d i t e).lol g' d' i' t' = D.lol g' d' i' t' := by
      intro i'
      simp only [bumpLol]
      rw [if_neg fun h => hne ⟨h.1, h.2.1, h.2.2.2⟩]
    simp only [this]
    rfl

theorem incoming_bumpProd (s : Study) (D : Dispatch) {g d : String} {n : InputNode} {i : ℕ}
    {p : Production} (hp : n.productions[i]? = some p) (t : ℕ) (e : ℚ) :
    incoming s (bumpProd D g d i t e) g d n t = incoming s D g d n t + e := by
  unfold incoming
  have : (sumI n.productions fun _ j => (bumpProd D g d i t e).prod g d j t) =
      (sumI n.productions fun _ j => D.prod g d j t) + e := by
    apply sumI_bump hp
    · simp [bumpProd]
    · intro b j hj; simp [bumpProd, hj]
  rw [this]
  simp only [bumpProd, imports, fromConverters]; ring

theorem incoming_bumpProd_ne (s : Study) (D : Dispatch) {g d g' d' : String} (n : InputNode)
    (i : ℕ) {t t' : ℕ} (e : ℚ) (hne : ¬ (g' = g ∧ d' = d ∧ t' = t)) :
    incoming s (bumpProd D g d i t e) g' d' n t' = incoming s D g' d' n t' := by
  have : ∀ i', (bumpProd D g d i t e).prod g' d' i' t' = D.prod g' d' i' t' := by
    intro i'
    simp only [bumpProd]
    rw [if_neg fun h => hne ⟨h.1, h.2.1, h.2.2.2⟩]
  unfold incoming
  simp only [this]
  rfl

theorem outgoing_bumpLol (s : Study) (k : ℕ) (D : Dispatch) {g d : String} {n : InputNode} {i : ℕ}
    {p : Consumption} (hp : n.consumptions[i]? = some p) (t : ℕ) (e : ℚ) :
    outgoing s k (bumpLol D g d i t e) g d n t = outgoing s k D g d n t - e := by
  unfold outgoing
  have : (sumI n.consumptions fun c j => val c.quantity k t - (bumpLol D g d i t e).lol g d j t) =
      (sumI n.consumptions fun c j => val c.quantity k t - D.lol g d j t) + -e := by
    apply sumI_bump hp
    · simp [bumpLol]; ring
    · intro b j hj; simp [bumpLol, hj]
  rw [this]
  simp only [bumpLol, toConverters]; ring

theorem outgoing_bumpLol_ne (s : Study) (k : ℕ) (D : Dispatch) {g d g' d' : String} (n : InputNode)
    (i : ℕ) {t t' : ℕ} (e : ℚ) (hne : ¬ (g' = g ∧ d' = d ∧ t' = t)) :
    outgoing s k (bumpLol D g d i t e) g' d' n t' = outgoing s k D g' d' n t' := by
  have : ∀ i', (bumpLol D g d i t e).lol g' d' i' t' = D.lol g' d' i' t' := by
    intro i'
    simp only [bumpLol]
    rw [if_neg fun h => hne ⟨h.1, h.2.1, h.2.2.2⟩]
  unfold outgoing
  simp only [this]
  rfl

theorem hasNode_unique {s : Study} (hi : StudyInv s) {g d : String} {n n' : InputNode}
    (h : HasNode s g d n) (h' : HasNode s g d n') : n = n' := by
  rw [← inNode_eq hi h, ← inNode_eq hi h']

/-- a least-cost dispatch does not use a production while a strictly cheaper one of the same node has
spare capacity -/
theorem merit_prod {s : Study} (hi : StudyInv s) {k : ℕ} {D : Dispatch} (hD : CodeFeasible s k D)
    (ho : ∀ D', CodeFeasible s k D' → cost s k D ≤ cost s k D') {g d : String} {n : InputNode}
    (hn : HasNode s g d n) {i j : ℕ} {p q : Production} (hp : n.productions[i]? = some p)
    (hq : n.productions[j]? = some q) {t : ℕ} (ht : t < s.horizon)
    (hc : val p.cost k t < val q.cost k t) :
    D.prod g d j t = 0 ∨ D.prod g d i t = val p.quantity k t := by
  by_contra hcon
  rw [not_or] at hcon
  have hbp := hD.bounds.productions g d n hn i p hp t ht
  have hbq := hD.bounds.productions g d n hn j q hq t ht
  have h1 : 0 < D.prod g d j t := lt_of_le_of_ne hbq.1 (Ne.symm hcon.1)
  have h2 : D.prod g d i t < val p.quantity k t := lt_of_le_of_ne hbp.2 hcon.2
  have hij : i ≠ j := by
    rintro rfl
    rw [hp] at hq
    cases hq
    exact lt_irrefl _ hc
  obtain ⟨e, he0, he1, he2⟩ : ∃ e : ℚ, 0 < e ∧ e ≤ D.prod g d j t ∧
      D.prod g d i t + e ≤ val p.quantity k t := by
    refine ⟨min (D.prod g d j t) (val p.quantity k t - D.prod g d i t), ?_, min_le_left _ _, ?_⟩
    · exact lt_min h1 (by linarith)
    · have := min_le_right (D.prod g d j t) (val p.quantity k t - D.prod g d i t)
      linarith
  have hD' : CodeFeasible s k (bumpProd (bumpProd D g d i t e) g d j t (-e)) := by
    refine ⟨⟨hD.bounds.consumptions, ?_, hD.bounds.storages, hD.bounds.links, hD.bounds.convSrc,
      hD.bounds.convDest⟩, ?_, hD.storages, hD.ratios⟩
    · intro g' d' n' hn' i' c hc' t' ht'
      have hb := hD.bounds.productions g' d' n' hn' i' c hc' t' ht'
      simp only [bumpProd]
      by_cases hA : g' = g ∧ d' = d ∧ i' = j ∧ t' = t
      · obtain ⟨rfl, rfl, rfl, rfl⟩ := hA
        have := hasNode_unique hi hn hn'
        subst this
        rw [hq] at hc'
        cases hc'
        rw [if_pos ⟨rfl, rfl, rfl, rfl⟩, if_neg (fun h => hij h.2.2.1.symm)]
        constructor <;> linarith
      · rw [if_neg hA]
        by_cases hB : g' = g ∧ d' = d ∧ i' = i ∧ t' = t
        · obtain ⟨rfl, rfl, rfl, rfl⟩ := hB
          have := hasNode_unique hi hn hn'
          subst this
          rw [hp] at hc'
          cases hc'
          rw [if_pos ⟨rfl, rfl, rfl, rfl⟩]
          constructor <;> linarith
        · rw [if_neg hB]; exact hb
    · intro g' d' n' hn' t' ht'
      have hb := hD.balance g' d' n' hn' t' ht'
      have e1 : selfFlow (bumpProd (bumpProd D g d i t e) g d j t (-e)) g' d' n' t' =
          selfFlow D g' d' n' t' := rfl
      have e2 : outgoing s k (bumpProd (bumpProd D g d i t e) g d j t (-e)) g' d' n' t' =
          outgoing s k D g' d' n' t' := rfl
      rw [e1, e2, ← hb]
      by_cases hA : g' = g ∧ d' = d ∧ t' = t
      · obtain ⟨rfl, rfl, rfl⟩ := hA
        have := hasNode_unique hi hn hn'
        subst this
        rw [incoming_bumpProd s _ hq, incoming_bumpProd s _ hp]; ring
      · rw [incoming_bumpProd_ne s _ _ _ _ hA, incoming_bumpProd_ne s _ _ _ _ hA]
  have := ho _ hD'
  rw [cost_bumpProd hi _ hn hq ht, cost_bumpProd hi _ hn hp ht] at this
  have hpos : 0 < (val q.cost k t - val p.cost k t) * e := mul_pos (by linarith) he0
  linarith

/-- a least-cost dispatch does not leave a consumption unserved while a production of the same node
that costs less than the loss of load has spare capacity -/
theorem merit_lol {s : Study} (hi : StudyInv s) {k : ℕ} {D : Dispatch} (hD : CodeFeasible s k D)
    (ho : ∀ D', CodeFeasible s k D' → cost s k D ≤ cost s k D') {g d : String} {n : InputNode}
    (hn : HasNode s g d n) {i j : ℕ} {p : Production} {c : Consumption}
    (hp : n.productions[i]? = some p) (hq : n.consumptions[j]? = some c) {t : ℕ}
    (ht : t < s.horizon) (hc : val p.cost k t < val c.cost k t) :
    D.lol g d j t = 0 ∨ D.prod g d i t = val p.quantity k t := by
  by_contra hcon
  rw [not_or] at hcon
  have hbp := hD.bounds.productions g d n hn i p hp t ht
  have hbq := hD.bounds.consumptions g d n hn j c hq t ht
  have h1 : 0 < D.lol g d j t := lt_of_le_of_ne hbq.1 (Ne.symm hcon.1)
  have h2 : D.prod g d i t < val p.quantity k t := lt_of_le_of_ne hbp.2 hcon.2
  obtain ⟨e, he0, he1, he2⟩ : ∃ e : ℚ, 0 < e ∧ e ≤ D.lol g d j t ∧
      D.prod g d i t + e ≤ val p.quantity k t := by
    refine ⟨min (D.lol g d j t) (val p.quantity k t - D.prod g d i t), ?_, min_le_left _ _, ?_⟩
    · exact lt_min h1 (by linarith)
    · have := min_le_right (D.lol g d j t) (val p.quantity k t - D.prod g d i t)
      linarith
  have hD' : CodeFeasible s k (bumpLol (bumpProd D g d i t e) g d j t (-e)) := by
    refine ⟨⟨?_, ?_, hD.bounds.storages, hD.bounds.links, hD.bounds.convSrc,
      hD.bounds.convDest⟩, ?_, hD.storages, hD.ratios⟩
    · intro g' d' n' hn' i' c' hc' t' ht'
      have hb := hD.bounds.consumptions g' d' n' hn' i' c' hc' t' ht'
      simp only [bumpLol, bumpProd]
      by_cases hA : g' = g ∧ d' = d ∧ i' = j ∧ t' = t
      · obtain ⟨rfl, rfl, rfl, rfl⟩ := hA
        rw [if_pos ⟨rfl, rfl, rfl, rfl⟩]
        constructor <;> linarith
      · rw [if_neg hA]; exact hb
    · intro g' d' n' hn' i' c' hc' t' ht'
      have hb := hD.bounds.productions g' d' n' hn' i' c' hc' t' ht'
      simp only [bumpLol, bumpProd]
      by_cases hB : g' = g ∧ d' = d ∧ i' = i ∧ t' = t
      · obtain ⟨rfl, rfl, rfl, rfl⟩ := hB
        have := hasNode_unique hi hn hn'
        subst this
        rw [hp] at hc'
        cases hc'
        rw [if_pos ⟨rfl, rfl, rfl, rfl⟩]
        constructor <;> linarith
      · rw [if_neg hB]; exact hb
    · intro g' d' n' hn' t' ht'
      have hb := hD.balance g' d' n' hn' t' ht'
      have e1 : selfFlow (bumpLol (bumpProd D g d i t e) g d j t (-e)) g' d' n' t' =
          selfFlow D g' d' n' t' := rfl
      have e2 : ∀ D : Dispatch, incoming s (bumpLol D g d j t (-e)) g' d' n' t' =
          incoming s D g' d' n' t' := fun _ => rfl
      have e3 : outgoing s k (bumpProd D g d i t e) g' d' n' t' = outgoing s k D g' d' n' t' := rfl
      rw [e1, e2]
      by_cases hA : g' = g ∧ d' = d ∧ t' = t
      · obtain ⟨rfl, rfl, rfl⟩ := hA
        have := hasNode_unique hi hn hn'
        subst this
        rw [outgoing_bumpLol s k _ hq, incoming_bumpProd s _ hp, e3]; linarith
      · rw [outgoing_bumpLol_ne s k _ _ _ _ hA, incoming_bumpProd_ne s _ _ _ _ hA, e3]; exact hb
  have := ho _ hD'
  rw [cost_bumpLol hi _ hn hq ht, cost_bumpProd hi _ hn hp ht] at this
  have hpos : 0 < (val c.cost k t - val p.cost k t) * e := mul_pos (by linarith) he0
  linarith

end Hadar
