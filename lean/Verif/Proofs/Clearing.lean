import Verif.Spec.Clearing
import Verif.Proofs.Prices

/-!
# Exchanges at a node, and the formula they lead to
-/

namespace Hadar

open Spec

/-- a least-cost dispatch does not use a production while a consumption of the node that costs less is served -/
theorem merit_served {s : Study} (hi : StudyInv s) {k : ℕ} {D : Dispatch} (hD : CodeFeasible s k D)
    (ho : ∀ D', CodeFeasible s k D' → cost s k D ≤ cost s k D') {g d : String} {n : InputNode}
    (hn : HasNode s g d n) {i j : ℕ} {p : Production} {c : Consumption}
    (hp : n.productions[i]? = some p) (hq : n.consumptions[j]? = some c) {t : ℕ}
    (ht : t < s.horizon) (hc : val c.cost k t < val p.cost k t) :
    D.prod g d i t = 0 ∨ D.lol g d j t = val c.quantity k t := by
  by_contra hcon
  rw [not_or] at hcon
  have hbp := hD.bounds.productions g d n hn i p hp t ht
  have hbq := hD.bounds.consumptions g d n hn j c hq t ht
  have h1 : D.lol g d j t < val c.quantity k t := lt_of_le_of_ne hbq.2 hcon.2
  have h2 : 0 < D.prod g d i t := lt_of_le_of_ne hbp.1 (Ne.symm hcon.1)
  obtain ⟨e, he0, he1, he2⟩ : ∃ e : ℚ, 0 < e ∧ e ≤ D.prod g d i t ∧ D.lol g d j t + e ≤ val c.quantity k t := by
    refine ⟨min (D.prod g d i t) (val c.quantity k t - D.lol g d j t), lt_min h2 (by linarith), min_le_left _ _, ?_⟩
    have := min_le_right (D.prod g d i t) (val c.quantity k t - D.lol g d j t)
    linarith
  have hD' : CodeFeasible s k (bumpLol (bumpProd D g d i t (-e)) g d j t e) := by
    refine ⟨⟨?_, ?_, hD.bounds.storages, hD.bounds.links, hD.bounds.convSrc,
      hD.bounds.convDest⟩, ?_, hD.storages, hD.ratios⟩
    · intro g' d' n' hn' i' c' hc' t' ht'
      have hb := hD.bounds.consumptions g' d' n' hn' i' c' hc' t' ht'
      simp only [bumpLol, bumpProd]
      by_cases hA : g' = g ∧ d' = d ∧ i' = j ∧ t' = t
      · obtain ⟨rfl, rfl, rfl, rfl⟩ := hA
        have := hasNode_unique hi hn hn'
        subst this
        rw [hq] at hc'
        cases hc'
        rw [if_pos ⟨rfl, rfl, rfl, rfl⟩]
        constructor <;> linarith
      · rw [if_neg hA]; exact hb
    · intro g' d' n' hn' i' c' hc' t' ht'
      have hb := hD.bounds.productions g' d' n' hn' i' c' hc' t' ht'
      simp only [bumpLol, bumpProd]
      by_cases hB : g' = g ∧ d' = d ∧ i' = i ∧ t' = t
      · obtain ⟨rfl, rfl, rfl, rfl⟩ := hB
        rw [if_pos ⟨rfl, rfl, rfl, rfl⟩]
        constructor <;> linarith
      · rw [if_neg hB]; exact hb
    · intro g' d' n' hn' t' ht'
      have hb := hD.balance g' d' n' hn' t' ht'
      have e1 : selfFlow (bumpLol (bumpProd D g d i t (-e)) g d j t e) g' d' n' t' =
          selfFlow D g' d' n' t' := rfl
      have e2 : ∀ D : Dispatch, incoming s (bumpLol D g d j t e) g' d' n' t' =
          incoming s D g' d' n' t' := fun _ => rfl
      have e3 : outgoing s k (bumpProd D g d i t (-e)) g' d' n' t' = outgoing s k D g' d' n' t' := rfl
      rw [e1, e2]
      by_cases hA : g' = g ∧ d' = d ∧ t' = t
      · obtain ⟨rfl, rfl, rfl⟩ := hA
        have := hasNode_unique hi hn hn'
        subst this
        rw [outgoing_bumpLol s k _ hq, incoming_bumpProd s _ hp, e3]; linarith
      · rw [outgoing_bumpLol_ne s k _ _ _ _ hA, incoming_bumpProd_ne s _ _ _ _ hA, e3]; exact hb
  have := ho _ hD'
  rw [cost_bumpLol hi _ hn hq ht, cost_bumpProd hi _ hn hp ht] at this
  have hpos : 0 < (val p.cost k t - val c.cost k t) * e := mul_pos (by linarith) he0
  linarith

/-- a least-cost dispatch does not cut a consumption while a cheaper one of the node is served -/
theorem merit_cons {s : Study} (hi : StudyInv s) {k : ℕ} {D : Dispatch} (hD : CodeFeasible s k D)
    (ho : ∀ D', CodeFeasible s k D' → cost s k D ≤ cost s k D') {g d : String} {n : InputNode}
    (hn : HasNode s g d n) {i j : ℕ} {p q : Consumption} (hp : n.consumptions[i]? = some p)
    (hq : n.consumptions[j]? = some q) {t : ℕ} (ht : t < s.horizon)
    (hc : val p.cost k t < val q.cost k t) :
    D.lol g d j t = 0 ∨ D.lol g d i t = val p.quantity k t := by
  by_contra hcon
  rw [not_or] at hcon
  have hbp := hD.bounds.consumptions g d n hn i p hp t ht
  have hbq := hD.bounds.consumptions g d n hn j q hq t ht
  have h1 : 0 < D.lol g d j t := lt_of_le_of_ne hbq.1 (Ne.symm hcon.1)
  have h2 : D.lol g d i t < val p.quantity k t := lt_of_le_of_ne hbp.2 hcon.2
  have hij : i ≠ j := by
    rintro rfl
    rw [hp] at hq
    cases hq
    exact lt_irrefl _ hc
  obtain ⟨e, he0, he1, he2⟩ : ∃ e : ℚ, 0 < e ∧ e ≤ D.lol g d j t ∧ D.lol g d i t + e ≤ val p.quantity k t := by
    refine ⟨min (D.lol g d j t) (val p.quantity k t - D.lol g d i t), lt_min h1 (by linarith), min_le_left _ _, ?_⟩
    have := min_le_right (D.lol g d j t) (val p.quantity k t - D.lol g d i t)
    linarith
  have hD' : CodeFeasible s k (bumpLol (bumpLol D g d i t e) g d j t (-e)) := by
    refine ⟨⟨?_, hD.bounds.productions, hD.bounds.storages, hD.bounds.links, hD.bounds.convSrc,
      hD.bounds.convDest⟩, ?_, hD.storages, hD.ratios⟩
    · intro g' d' n' hn' i' c hc' t' ht'
      have hb := hD.bounds.consumptions g' d' n' hn' i' c hc' t' ht'
      simp only [bumpLol]
      by_cases hA : g' = g ∧ d' = d ∧ i' = j ∧ t' = t
      · obtain ⟨rfl, rfl, rfl, rfl⟩ := hA
        have := hasNode_unique hi hn hn'
        subst this
        rw [hq] at hc'
        cases hc'
        rw [if_pos ⟨rfl, rfl, rfl, rfl⟩, if_neg (fun h => hij h.2.2.1.symm)]
        constructor <;> linarith
      · rw [if_neg hA]
        by_cases hB : g' = g ∧ d' = d ∧ i' = i ∧ t' = t
        · obtain ⟨rfl, rfl, rfl, rfl⟩ := hB
          have := hasNode_unique hi hn hn'
          subst this
          rw [hp] at hc'
          cases hc'
          rw [if_pos ⟨rfl, rfl, rfl, rfl⟩]
          constructor <;> linarith
        · rw [if_neg hB]; exact hb
    · intro g' d' n' hn' t' ht'
      have hb := hD.balance g' d' n' hn' t' ht'
      have e1 : selfFlow (bumpLol (bumpLol D g d i t e) g d j t (-e)) g' d' n' t' =
          selfFlow D g' d' n' t' := rfl
      have e2 : incoming s (bumpLol (bumpLol D g d i t e) g d j t (-e)) g' d' n' t' =
          incoming s D g' d' n' t' := rfl
      rw [e1, e2, hb]
      by_cases hA : g' = g ∧ d' = d ∧ t' = t
      · obtain ⟨rfl, rfl, rfl⟩ := hA
        have := hasNode_unique hi hn hn'
        subst this
        rw [outgoing_bumpLol s k _ hq, outgoing_bumpLol s k _ hp]; ring
      · rw [outgoing_bumpLol_ne s k _ _ _ _ hA, outgoing_bumpLol_ne s k _ _ _ _ hA]
  have := ho _ hD'
  rw [cost_bumpLol hi _ hn hq ht, cost_bumpLol hi _ hn hp ht] at this
  have hpos : 0 < (val q.cost k t - val p.cost k t) * e := mul_pos (by linarith) he0
  linarith

/-! ### Sums over the elements whose cost is such as said -/

section

variable {α : Type}

/-- sum over the elements whose cost is such as said -/
def someOf (l : List α) (κ : α → ℚ) (which : ℚ → Prop) [DecidablePred which] (f : α → ℕ → ℚ) : ℚ :=
  sumI l fun a i => if which (κ a) then f a i else 0

theorem sumI_split3 (l : List α) (κ : α → ℚ) (c : ℚ) (f : α → ℕ → ℚ) :
    sumI l f = someOf l κ (· < c) f + someOf l κ (· = c) f + someOf l κ (c < ·) f := by
  unfold someOf
  rw [← sumI_add, ← sumI_add]
  congr 1
  funext a i
  rcases lt_trichotomy (κ a) c with h | h | h
  · rw [if_pos h, if_neg (ne_of_lt h), if_neg (not_lt_of_gt h)]; ring
  · rw [if_neg (by rw [h]; exact lt_irrefl _), if_pos h, if_neg (by rw [h]; exact lt_irrefl _)]; ring
  · rw [if_neg (not_lt_of_gt h), if_neg (ne_of_gt h), if_pos h]; ring

theorem someOf_congr {l : List α} {κ : α → ℚ} {which : ℚ → Prop} [DecidablePred which] {f g : α → ℕ → ℚ}
    (h : ∀ a i, l[i]? = some a → which (κ a) → f a i = g a i) : someOf l κ which f = someOf l κ which g := by
  unfold someOf sumI
  congr 1
  apply List.map_congr_left
  rintro ⟨a, i⟩ hp
  dsimp only
  split_ifs with hw
  · exact h a i (mem_zipIdx_iff.mp hp) hw
  · rfl

theorem someOf_le {l : List α} {κ : α → ℚ} {which : ℚ → Prop} [DecidablePred which] {f g : α → ℕ → ℚ}
    (h : ∀ a i, l[i]? = some a → f a i ≤ g a i) : someOf l κ which f ≤ someOf l κ which g := by
  unfold someOf
  refine sumI_le fun a i hp => ?_
  split_ifs with hw
  · exact h a i hp
  · exact le_refl _

theorem someOf_zero {l : List α} {κ : α → ℚ} {which : ℚ → Prop} [DecidablePred which] : someOf l κ which (fun _ _ => 0) = 0 := by
  unfold someOf sumI
  simp

/-- if the sum of `f` is less than the sum of `g`, some element has less -/
theorem someOf_lt {l : List α} {κ : α → ℚ} {which : ℚ → Prop} [DecidablePred which] {f g : α → ℕ → ℚ}
    (h : someOf l κ which f < someOf l κ which g) : ∃ a i, l[i]? = some a ∧ which (κ a) ∧ f a i < g a i := by
  by_contra hcon
  push Not at hcon
  refine absurd h (not_lt.mpr ?_)
  unfold someOf
  refine sumI_le fun a i hp => ?_
  split_ifs with hw
  · exact hcon a i hp hw
  · exact le_refl _

theorem someOf_quantity (l : List α) (κ q : α → ℚ) (which : ℚ → Prop) [DecidablePred which] :
    someOf l κ which (fun a _ => q a) = sumL l fun a => if which (κ a) then q a else 0 := by
  unfold someOf sumI sumL
  have : l.zipIdx.map (fun p => if which (κ p.1) then q p.1 else 0) = (l.zipIdx.map Prod.fst).map fun a => if which (κ a) then q a else 0 := by
    rw [List.map_map]; rfl
  rw [this, List.zipIdx_map_fst]

theorem someOf_single {l : List α} {κ : α → ℚ} {which : ℚ → Prop} [DecidablePred which] {a : α} {i : ℕ} (h : l[i]? = some a)
    (hw : which (κ a)) (h1 : ∀ b j, l[j]? = some b → which (κ b) → j = i) (f : α → ℕ → ℚ) : someOf l κ which f = f a i := by
  have e : someOf l κ which f = sumI l fun _ j => if j = i then f a i else 0 := by
    unfold someOf
    refine sumI_congr fun b j hb => ?_
    by_cases hj : j = i
    · subst hj
      rw [h] at hb
      cases hb
      rw [if_pos hw, if_pos rfl]
    · rw [if_neg hj, if_neg fun hw' => hj (h1 b j hb hw')]
  rw [e, sumI_bump h (g := fun _ _ => 0) (e := f a i)]
  · simp [sumI]
  · simp
  · intro b j hj; rw [if_neg hj]

end

theorem within_of {x top y : ℚ} (h0 : 0 ≤ x) (h1 : x ≤ top) (h2 : 0 < x → x ≤ y) (h3 : x < top → y ≤ x) : x = within top y := by
  unfold within
  rcases lt_or_eq_of_le h0 with h | h
  · rcases lt_or_eq_of_le h1 with h' | h'
    · have : x = y := le_antisymm (h2 h) (h3 h')
      rw [← this, min_eq_right h1, max_eq_right h0]
    · rw [← h', min_eq_left (h2 h), max_eq_right h0]
  · rcases lt_or_eq_of_le h1 with h' | h'
    · rw [max_eq_left]
      · exact h.symm
      · exact (min_le_right _ _).trans ((h3 h').trans h.ge)
    · rw [← h', max_eq_left]
      · exact h.symm
      · exact (min_le_left _ _).trans h.ge

/-- the balance of a node, as a balance of its productions, its consumptions and what it receives -/
theorem received_balance {s : Study} {k : ℕ} {D : Dispatch} {g d : String} {n : InputNode} {t : ℕ}
    (h : incoming s D g d n t = outgoing s k D g d n t) :
    sumI n.productions (fun _ i => D.prod g d i t) + received s D g d n t =
      sumI n.consumptions fun c i => val c.quantity k t - D.lol g d i t := by
  unfold incoming outgoing at h
  unfold received
  have e : (sumI n.storages fun _ i => D.fout g d i t - D.fin g d i t) =
      (sumI n.storages fun _ i => D.fout g d i t) - sumI n.storages fun _ i => D.fin g d i t := by
    have := sumI_add n.storages (fun _ i => D.fout g d i t - D.fin g d i t) fun _ i => D.fin g d i t
    simp only [sub_add_cancel] at this
    linarith
  rw [e]
  linarith

section

variable {s : Study} {k : ℕ} {D : Dispatch} {g d : String} {n : InputNode} {t : ℕ}

theorem clearing_prod (hi : StudyInv s) (hD : CodeFeasible s k D)
    (ho : ∀ D', CodeFeasible s k D' → cost s k D ≤ cost s k D') (hn : HasNode s g d n) (ht : t < s.horizon)
    (hb : incoming s D g d n t = outgoing s k D g d n t) (c : ℚ) (hc : ∀ q ∈ n.consumptions, val q.cost k t ≠ c) :
    producedAt k D g d n t c = within (supply k n t (· = c)) (demand k n t (c < ·) - received s D g d n t - supply k n t (· < c)) := by
  have bal := received_balance hb
  rw [sumI_split3 n.productions (fun p => val p.cost k t) c, sumI_split3 n.consumptions (fun p => val p.cost k t) c] at bal
  have bp := fun a i h => hD.bounds.productions g d n hn i a h t ht
  have bc := fun a i h => hD.bounds.consumptions g d n hn i a h t ht
  have hS : ∀ (w : ℚ → Prop) [DecidablePred w], supply k n t w =
      someOf n.productions (fun p => val p.cost k t) w fun p _ => val p.quantity k t := by
    intro w _; rw [someOf_quantity]; rfl
  have hQ : ∀ (w : ℚ → Prop) [DecidablePred w], demand k n t w =
      someOf n.consumptions (fun p => val p.cost k t) w fun p _ => val p.quantity k t := by
    intro w _; rw [someOf_quantity]; rfl
  have hU : producedAt k D g d n t c = someOf n.productions (fun p => val p.cost k t) (· = c) fun _ i => D.prod g d i t := rfl
  have hmid : someOf n.consumptions (fun p => val p.cost k t) (· = c) (fun p i => val p.quantity k t - D.lol g d i t) = 0 := by
    rw [← someOf_zero (l := n.consumptions) (κ := fun p => val p.cost k t) (which := (· = c))]
    exact someOf_congr fun a i h hw => absurd hw (hc a (List.mem_of_getElem? h))
  have u0 : ∀ (w : ℚ → Prop) [DecidablePred w], 0 ≤ someOf n.productions (fun p => val p.cost k t) w fun _ i => D.prod g d i t := by
    intro w _
    rw [← someOf_zero (l := n.productions) (κ := fun p => val p.cost k t) (which := w)]
    exact someOf_le fun a i h => (bp a i h).1
  have u1 : ∀ (w : ℚ → Prop) [DecidablePred w], someOf n.productions (fun p => val p.cost k t) w (fun _ i => D.prod g d i t) ≤ supply k n t w := by
    intro w _
    rw [hS]
    exact someOf_le fun a i h => (bp a i h).2
  have s0 : ∀ (w : ℚ → Prop) [DecidablePred w], 0 ≤ someOf n.consumptions (fun p => val p.cost k t) w fun p i => val p.quantity k t - D.lol g d i t := by
    intro w _
    rw [← someOf_zero (l := n.consumptions) (κ := fun p => val p.cost k t) (which := w)]
    exact someOf_le fun a i h => by linarith [(bc a i h).2]
  have s1 : ∀ (w : ℚ → Prop) [DecidablePred w],
      someOf n.consumptions (fun p => val p.cost k t) w (fun p i => val p.quantity k t - D.lol g d i t) ≤ demand k n t w := by
    intro w _
    rw [hQ]
    exact someOf_le fun a i h => by linarith [(bc a i h).1]
  rw [hU]
  refine within_of (u0 _) (u1 _) (fun hpos => ?_) (fun hlt => ?_)
  · rw [← someOf_zero (l := n.productions) (κ := fun p => val p.cost k t) (which := (· = c))] at hpos
    obtain ⟨p, i, hp, hw, hpos⟩ := someOf_lt hpos
    have e1 : supply k n t (· < c) = someOf n.productions (fun p => val p.cost k t) (· < c) fun _ i => D.prod g d i t := by
      rw [hS]
      refine someOf_congr fun q j hq hlt => ?_
      rcases merit_prod hi hD ho hn hq hp ht (by rw [hw]; exact hlt) with h | h
      · exact absurd h (ne_of_gt hpos)
      · exact h.symm
    have e2 : someOf n.consumptions (fun p => val p.cost k t) (· < c) (fun p i => val p.quantity k t - D.lol g d i t) = 0 := by
      rw [← someOf_zero (l := n.consumptions) (κ := fun p => val p.cost k t) (which := (· < c))]
      refine someOf_congr fun q j hq hlt => ?_
      rcases merit_served hi hD ho hn hp hq ht (by rw [hw]; exact hlt) with h | h
      · exact absurd h (ne_of_gt hpos)
      · linarith
    have := u0 (c < ·)
    have := s1 (c < ·)
    linarith
  · rw [hS] at hlt
    obtain ⟨p, i, hp, hw, hlt⟩ := someOf_lt hlt
    have e1 : demand k n t (c < ·) = someOf n.consumptions (fun p => val p.cost k t) (c < ·) fun p i => val p.quantity k t - D.lol g d i t := by
      rw [hQ]
      refine someOf_congr fun q j hq h' => ?_
      rcases merit_lol hi hD ho hn hp hq ht (by rw [hw]; exact h') with h | h
      · linarith
      · exact absurd h (ne_of_lt hlt)
    have e2 : someOf n.productions (fun p => val p.cost k t) (c < ·) (fun _ i => D.prod g d i t) = 0 := by
      rw [← someOf_zero (l := n.productions) (κ := fun p => val p.cost k t) (which := (c < ·))]
      refine someOf_congr fun q j hq h' => ?_
      rcases merit_prod hi hD ho hn hp hq ht (by rw [hw]; exact h') with h | h
      · exact h
      · exact absurd h (ne_of_lt hlt)
    have := u1 (· < c)
    have := s0 (· < c)
    linarith

theorem clearing_cons (hi : StudyInv s) (hD : CodeFeasible s k D)
    (ho : ∀ D', CodeFeasible s k D' → cost s k D ≤ cost s k D') (hn : HasNode s g d n) (ht : t < s.horizon)
    (hb : incoming s D g d n t = outgoing s k D g d n t) (c : ℚ) (hc : ∀ q ∈ n.productions, val q.cost k t ≠ c) :
    servedAt k D g d n t c = within (demand k n t (· = c)) (supply k n t (· < c) + received s D g d n t - demand k n t (c < ·)) := by
  have bal := received_balance hb
  rw [sumI_split3 n.productions (fun p => val p.cost k t) c, sumI_split3 n.consumptions (fun p => val p.cost k t) c] at bal
  have bp := fun a i h => hD.bounds.productions g d n hn i a h t ht
  have bc := fun a i h => hD.bounds.consumptions g d n hn i a h t ht
  have hS : ∀ (w : ℚ → Prop) [DecidablePred w], supply k n t w =
      someOf n.productions (fun p => val p.cost k t) w fun p _ => val p.quantity k t := by
    intro w _; rw [someOf_quantity]; rfl
  have hQ : ∀ (w : ℚ → Prop) [DecidablePred w], demand k n t w =
      someOf n.consumptions (fun p => val p.cost k t) w fun p _ => val p.quantity k t := by
    intro w _; rw [someOf_quantity]; rfl
  have hT : servedAt k D g d n t c = someOf n.consumptions (fun p => val p.cost k t) (· = c) fun p i => val p.quantity k t - D.lol g d i t := rfl
  have hmid : someOf n.productions (fun p => val p.cost k t) (· = c) (fun _ i => D.prod g d i t) = 0 := by
    rw [← someOf_zero (l := n.productions) (κ := fun p => val p.cost k t) (which := (· = c))]
    exact someOf_congr fun a i h hw => absurd hw (hc a (List.mem_of_getElem? h))
  have u0 : ∀ (w : ℚ → Prop) [DecidablePred w], 0 ≤ someOf n.productions (fun p => val p.cost k t) w fun _ i => D.prod g d i t := by
    intro w _
    rw [← someOf_zero (l := n.productions) (κ := fun p => val p.cost k t) (which := w)]
    exact someOf_le fun a i h => (bp a i h).1
  have u1 : ∀ (w : ℚ → Prop) [DecidablePred w], someOf n.productions (fun p => val p.cost k t) w (fun _ i => D.prod g d i t) ≤ supply k n t w := by
    intro w _
    rw [hS]
    exact someOf_le fun a i h => (bp a i h).2
  have s0 : ∀ (w : ℚ → Prop) [DecidablePred w], 0 ≤ someOf n.consumptions (fun p => val p.cost k t) w fun p i => val p.quantity k t - D.lol g d i t := by
    intro w _
    rw [← someOf_zero (l := n.consumptions) (κ := fun p => val p.cost k t) (which := w)]
    exact someOf_le fun a i h => by linarith [(bc a i h).2]
  have s1 : ∀ (w : ℚ → Prop) [DecidablePred w],
      someOf n.consumptions (fun p => val p.cost k t) w (fun p i => val p.quantity k t - D.lol g d i t) ≤ demand k n t w := by
    intro w _
    rw [hQ]
    exact someOf_le fun a i h => by linarith [(bc a i h).1]
  rw [hT]
  refine within_of (s0 _) (s1 _) (fun hpos => ?_) (fun hlt => ?_)
  · rw [← someOf_zero (l := n.consumptions) (κ := fun p => val p.cost k t) (which := (· = c))] at hpos
    obtain ⟨p, i, hp, hw, hpos⟩ := someOf_lt hpos
    have e1 : demand k n t (c < ·) = someOf n.consumptions (fun p => val p.cost k t) (c < ·) fun p i => val p.quantity k t - D.lol g d i t := by
      rw [hQ]
      refine someOf_congr fun q j hq hlt => ?_
      rcases merit_cons hi hD ho hn hp hq ht (by rw [hw]; exact hlt) with h | h
      · linarith
      · exact absurd h (by intro h; linarith)
    have e2 : someOf n.productions (fun p => val p.cost k t) (c < ·) (fun _ i => D.prod g d i t) = 0 := by
      rw [← someOf_zero (l := n.productions) (κ := fun p => val p.cost k t) (which := (c < ·))]
      refine someOf_congr fun q j hq hlt => ?_
      rcases merit_served hi hD ho hn hq hp ht (by rw [hw]; exact hlt) with h | h
      · exact h
      · exact absurd h (by intro h; linarith)
    have := u1 (· < c)
    have := s0 (· < c)
    linarith
  · rw [hQ] at hlt
    obtain ⟨p, i, hp, hw, hlt⟩ := someOf_lt hlt
    have e1 : supply k n t (· < c) = someOf n.productions (fun p => val p.cost k t) (· < c) fun _ i => D.prod g d i t := by
      rw [hS]
      refine someOf_congr fun q j hq h' => ?_
      rcases merit_lol hi hD ho hn hq hp ht (by rw [hw]; exact h') with h | h
      · exact absurd h (by intro h; linarith)
      · exact h.symm
    have e2 : someOf n.consumptions (fun p => val p.cost k t) (· < c) (fun p i => val p.quantity k t - D.lol g d i t) = 0 := by
      rw [← someOf_zero (l := n.consumptions) (κ := fun p => val p.cost k t) (which := (· < c))]
      refine someOf_congr fun q j hq h' => ?_
      rcases merit_cons hi hD ho hn hq hp ht (by rw [hw]; exact h') with h | h
      · exact absurd h (by intro h; linarith)
      · linarith
    have := u0 (c < ·)
    have := s1 (c < ·)
    linarith

end

end Hadar
