import Verif.Spec.Dto
import Verif.Proofs.Base
import Verif.Proofs.Fluent
import Mathlib.Data.List.Sort
import Mathlib.Data.List.Perm.Subperm

/-! # Lemmas on equality and hash of Python objects -/

namespace Hadar

open Spec PyObj

/-! ### Same contents -/

mutual
/-- the same contents, arrays being compared by `R` -/
def SameData (R : NdArray → NdArray → Prop) : PyObj → PyObj → Prop
  | .num q, y => match y with
    | .num q' => q = q'
    | _ => False
  | .str s, y => match y with
    | .str s' => s = s'
    | _ => False
  | .arr _ a, y => match y with
    | .arr _ b => R a b
    | _ => False
  | .list _ l, y => match y with
    | .list _ m => SameItems R l m
    | _ => False
  | .dict _ d, y => match y with
    | .dict _ e => d.length = e.length ∧ SameEntries R d e
    | _ => False
  | .inst _ c d, y => match y with
    | .inst _ c' e => c = c' ∧ d.length = e.length ∧ SameEntries R d e
    | _ => False
def SameItems (R : NdArray → NdArray → Prop) : List PyObj → List PyObj → Prop
  | [], m => m = []
  | x :: l, m => match m with
    | [] => False
    | y :: m => SameData R x y ∧ SameItems R l m
def SameEntries (R : NdArray → NdArray → Prop) : List (PyKey × PyObj) → List (PyKey × PyObj) → Prop
  | [], _ => True
  | (k, x) :: d, e => (∃ y, Dict.get? e k = some y ∧ SameData R x y) ∧ SameEntries R d e
end

theorem eraseItems_length (l : List PyObj) : (eraseItems l).length = l.length := by
  induction l with
  | nil => rfl
  | cons x l ih => simp [eraseItems, ih]

theorem eraseEntries_length (l : List (PyKey × PyObj)) : (eraseEntries l).length = l.length := by
  induction l with
  | nil => rfl
  | cons x l ih => obtain ⟨k, x⟩ := x; simp [eraseEntries, ih]

theorem eraseEntries_keys (l : List (PyKey × PyObj)) : (eraseEntries l).map Prod.fst = l.map Prod.fst := by
  induction l with
  | nil => rfl
  | cons x l ih => obtain ⟨k, x⟩ := x; simp [eraseEntries, ih]

theorem get?_eraseEntries (l : List (PyKey × PyObj)) (k : PyKey) :
    Dict.get? (eraseEntries l) k = (Dict.get? l k).map erase := by
  induction l with
  | nil => rfl
  | cons x l ih =>
    obtain ⟨k', x⟩ := x
    simp only [eraseEntries, Dict.get?]
    split
    · rfl
    · exact ih

/-! ### Contents do not depend on identities -/

mutual
theorem sameData_erase (R : NdArray → NdArray → Prop) : ∀ x y : PyObj,
    SameData R x.erase y.erase ↔ SameData R x y
  | .num q, y => by cases y <;> simp [erase, SameData]
  | .str s, y => by cases y <;> simp [erase, SameData]
  | .arr i a, y => by cases y <;> simp [erase, SameData]
  | .list i l, y => by
    cases y <;> simp only [erase, SameData]
    exact sameItems_erase R l _
  | .dict i d, y => by
    cases y <;> simp only [erase, SameData]
    rw [eraseEntries_length, eraseEntries_length, sameEntries_erase R d _]
  | .inst i c d, y => by
    cases y <;> simp only [erase, SameData]
    rw [eraseEntries_length, eraseEntries_length, sameEntries_erase R d _]
theorem sameItems_erase (R : NdArray → NdArray → Prop) : ∀ x y : List PyObj,
    SameItems R (eraseItems x) (eraseItems y) ↔ SameItems R x y
  | [], y => by cases y <;> simp [eraseItems, SameItems]
  | x :: l, y => by
    cases y with
    | nil => simp [eraseItems, SameItems]
    | cons y m =>
      simp only [eraseItems, SameItems]
      rw [sameData_erase R x y, sameItems_erase R l m]
theorem sameEntries_erase (R : NdArray → NdArray → Prop) : ∀ x y : List (PyKey × PyObj),
    SameEntries R (eraseEntries x) (eraseEntries y) ↔ SameEntries R x y
  | [], y => by simp [eraseEntries, SameEntries]
  | (k, x) :: d, e => by
    simp only [eraseEntries, SameEntries, get?_eraseEntries, sameEntries_erase R d e]
    refine and_congr ?_ Iff.rfl
    cases Dict.get? e k with
    | none => simp
    | some y => simp [sameData_erase R x y]
end

mutual
theorem sameData_of_erase {R : NdArray → NdArray → Prop} (hR : ∀ a, R a a) {mem : ℕ → PyObj} :
    ∀ x y : PyObj, Live mem x → x.erase = y.erase → SameData R x y
  | .num q, y, _, h => by cases y <;> simp_all [erase, SameData]
  | .str s, y, _, h => by cases y <;> simp_all [erase, SameData]
  | .arr i a, y, _, h => by
    cases y <;> simp [erase] at h
    subst h
    exact hR _
  | .list i l, y, hl, h => by
    cases y <;> simp [erase] at h
    exact sameItems_of_erase hR l _ hl.2 h
  | .dict i d, y, hl, h => by
    cases y with
    | dict j e =>
      simp [erase] at h
      refine ⟨by rw [← eraseEntries_length d, h, eraseEntries_length], ?_⟩
      refine sameEntries_of_erase hR d e hl.2.2 fun p hp => ?_
      rw [← h, get?_eraseEntries, Dict.get?_of_mem (v := p.2) hl.2.1 hp]
      rfl
    | _ => simp [erase] at h
  | .inst i c d, y, hl, h => by
    cases y with
    | inst j c' e =>
      simp [erase] at h
      obtain ⟨rfl, h⟩ := h
      refine ⟨rfl, by rw [← eraseEntries_length d, h, eraseEntries_length], ?_⟩
      refine sameEntries_of_erase hR d e hl.2.2.1 fun p hp => ?_
      rw [← h, get?_eraseEntries, Dict.get?_of_mem (v := p.2) hl.2.1 hp]
      rfl
    | _ => simp [erase] at h
theorem sameItems_of_erase {R : NdArray → NdArray → Prop} (hR : ∀ a, R a a) {mem : ℕ → PyObj} :
    ∀ x y : List PyObj, LiveItems mem x → eraseItems x = eraseItems y → SameItems R x y
  | [], y, _, h => by cases y <;> simp_all [eraseItems, SameItems]
  | x :: l, y, hl, h => by
    cases y with
    | nil => simp [eraseItems] at h
    | cons y m =>
      simp only [eraseItems, List.cons.injEq] at h
      exact ⟨sameData_of_erase hR x y hl.1 h.1, sameItems_of_erase hR l m hl.2 h.2⟩
theorem sameEntries_of_erase {R : NdArray → NdArray → Prop} (hR : ∀ a, R a a) {mem : ℕ → PyObj} :
    ∀ x e : List (PyKey × PyObj), LiveEntries mem x →
      (∀ p ∈ x, Dict.get? (eraseEntries e) p.1 = some p.2.erase) → SameEntries R x e
  | [], _, _, _ => by simp [SameEntries]
  | (k, x) :: d, e, hl, h => by
    refine ⟨?_, sameEntries_of_erase hR d e hl.2 fun p hp => h p (List.mem_cons_of_mem _ hp)⟩
    have := h (k, x) List.mem_cons_self
    rw [get?_eraseEntries] at this
    cases hg : Dict.get? e k with
    | none => simp [hg] at this
    | some y =>
      refine ⟨y, rfl, sameData_of_erase hR x y hl.1 ?_⟩
      simp [hg] at this
      exact this.symm
end

theorem Spec.Live.same_id {R : NdArray → NdArray → Prop} (hR : ∀ a, R a a) {mem : ℕ → PyObj} {x y : PyObj}
    (hx : Live mem x) (h : x.erase = y.erase) : SameData R x y := sameData_of_erase hR x y hx h

/-! ### Soundness: equal objects have the same contents -/

theorem mulEqOne {m n : ℕ} : m * n = 1 ↔ m = 1 ∧ n = 1 :=
  ⟨fun h => ⟨Nat.dvd_one.1 ⟨n, h.symm⟩, Nat.dvd_one.1 ⟨m, (Nat.mul_comm m n ▸ h).symm⟩⟩, fun h => by rw [h.1, h.2]⟩

theorem broadcast_prod_one {a b sh : List ℕ} (h : broadcast a b = some sh) (h1 : sh.prod = 1) :
    a.prod = 1 ∧ b.prod = 1 := by
  induction a generalizing b sh with
  | nil => simp [broadcast] at h; subst h; simpa using h1
  | cons n a ih =>
    cases b with
    | nil => simp [broadcast] at h; subst h; simpa using h1
    | cons m b =>
      simp only [broadcast] at h
      cases hr : broadcast a b with
      | none => simp [hr] at h
      | some r =>
        simp only [hr] at h
        split at h
        · rename_i e; simp at h; subst h; subst e
          simp [mulEqOne] at h1
          have := ih hr h1.2
          simp [h1.1, this]
        · split at h
          · rename_i e; simp at h; subst h; subst e
            simp [mulEqOne] at h1
            have := ih hr h1.2
            simp [h1.1, this]
          · split at h
            · rename_i e; simp at h; subst h; subst e
              simp [mulEqOne] at h1
              have := ih hr h1.2
              simp [h1.1, this]
            · cases h

theorem broadcast_self (a : List ℕ) : broadcast a a = some a := by
  induction a with
  | nil => rfl
  | cons n a ih => simp [broadcast, ih]

theorem broadcast_ones {a b : List ℕ} (ha : a.prod = 1) (hb : b.prod = 1) :
    ∃ sh, broadcast a b = some sh ∧ sh.prod = 1 := by
  induction a generalizing b with
  | nil => exact ⟨b, rfl, hb⟩
  | cons n a ih =>
    cases b with
    | nil => exact ⟨n :: a, rfl, ha⟩
    | cons m b =>
      simp [mulEqOne] at ha hb
      obtain ⟨sh, h, h1⟩ := ih ha.2 hb.2
      exact ⟨n :: sh, by simp [broadcast, h, ha.1, hb.1], by simp [ha.1, h1]⟩

theorem arrayEq_true {strict : Bool} {a b : NdArray} (h : arrayEq strict a b = .ok true) :
    a.data = b.data := by
  unfold arrayEq at h
  split at h
  · split at h <;> simp at h
  · rename_i sh hsh
    split at h
    · simp at h
    · split at h
      · rename_i h1
        obtain ⟨ha, hb⟩ := broadcast_prod_one hsh h1
        have ha' : a.data.length = 1 := by rw [a.wf, ← List.prod_reverse, ha]
        have hb' : b.data.length = 1 := by rw [b.wf, ← List.prod_reverse, hb]
        obtain ⟨q, hq⟩ := List.length_eq_one_iff.1 ha'
        obtain ⟨q', hq'⟩ := List.length_eq_one_iff.1 hb'
        simp [hq, hq'] at h ⊢
        exact h
      · simp at h

theorem arrayEq_self (strict : Bool) (a : NdArray) (h0 : a.data ≠ []) :
    arrayEq strict a a = .ok true ∨ arrayEq strict a a = .error .valueError := by
  have hp : a.shape.reverse.prod = a.data.length := by rw [List.prod_reverse, a.wf]
  have : a.data.length ≠ 0 := by simpa using h0
  unfold arrayEq
  rw [broadcast_self]
  simp only [hp, this, if_false]
  split
  · left; simp
  · right; rfl

theorem arrayEq_error {strict : Bool} {a b : NdArray} {e : PyErr} (h : arrayEq strict a b = .error e) :
    e = .valueError := by
  unfold arrayEq at h
  split at h
  · split at h <;> simp at h
    exact h.symm
  · split at h
    · simp at h
    · split at h <;> simp at h
      exact h.symm

theorem arrayEq_one (strict : Bool) {a b : NdArray} (ha : a.data.length = 1) (hb : b.data.length = 1) :
    ∃ r, arrayEq strict a b = .ok r := by
  obtain ⟨sh, h, h1⟩ := broadcast_ones (a := a.shape.reverse) (b := b.shape.reverse)
    (by rw [List.prod_reverse, ← a.wf, ha]) (by rw [List.prod_reverse, ← b.wf, hb])
  unfold arrayEq
  rw [h]
  simp [h1]

theorem Spec.LiveEntries.get {mem : ℕ → PyObj} {e : List (PyKey × PyObj)} {k : PyKey} {y : PyObj}
    (h : LiveEntries mem e) (hg : Dict.get? e k = some y) : Live mem y := by
  induction e with
  | nil => cases hg
  | cons p e ih =>
    obtain ⟨k', x⟩ := p
    simp only [Dict.get?] at hg
    split at hg
    · cases hg; exact h.1
    · exact ih h.2 hg

/-- the same numbers in the same order, and the same array if dimensions are the same -/
def SameNumbers (a b : NdArray) : Prop := a.data = b.data ∧ (a.shape.length = b.shape.length → a = b)

theorem SameNumbers.rfl (a : NdArray) : SameNumbers a a := ⟨Eq.refl _, fun _ => Eq.refl _⟩

theorem prod_one {l : List ℕ} (h : l.prod = 1) : l = List.replicate l.length 1 := by
  induction l with
  | nil => rfl
  | cons n l ih =>
    simp only [List.prod_cons, mulEqOne] at h
    rw [h.1, List.length_cons, List.replicate_succ, ← ih h.2]

theorem arrayEq_same {strict : Bool} {a b : NdArray} (h : arrayEq strict a b = .ok true) : SameNumbers a b := by
  have hd := arrayEq_true h
  refine ⟨hd, fun hl => ?_⟩
  unfold arrayEq at h
  split at h
  · split at h <;> simp at h
  · rename_i sh hb
    split at h
    · simp at h
    · split at h
      · rename_i h1
        have := broadcast_prod_one hb h1
        rw [List.prod_reverse, List.prod_reverse] at this
        obtain ⟨s, d, w⟩ := a
        obtain ⟨s', d', w'⟩ := b
        simp only at this hd hl
        have e : s = s' := by rw [prod_one this.1, prod_one this.2, hl]
        subst e; subst hd; rfl
      · simp at h

mutual
theorem eq_true {strict : Bool} {mem : ℕ → PyObj} : ∀ x y : PyObj, Live mem x → Live mem y →
    eq strict x y = .ok true → SameData SameNumbers x y
  | .num q, y, _, _, h => by cases y <;> simp_all [eq, SameData]
  | .str s, y, _, _, h => by cases y <;> simp_all [eq, SameData]
  | .arr i a, y, hx, hy, h => by
    cases y with
    | arr j b =>
      simp only [eq] at h
      split at h
      · rename_i e; subst e
        refine Spec.Live.same_id (R := SameNumbers) SameNumbers.rfl hx ?_
        simp only [erase]
        rw [← (show mem i = _ from hx), ← (show mem i = _ from hy)]
      · exact arrayEq_same h
    | _ => simp [eq] at h
  | .list i l, y, hx, hy, h => by
    cases y with
    | list j m =>
      simp only [eq] at h
      split at h
      · rename_i e; subst e
        refine Spec.Live.same_id (R := SameNumbers) SameNumbers.rfl hx ?_
        simp only [erase]
        rw [← hx.1, ← hy.1]
      · split at h
        · rename_i hl
          exact eqItems_true l m hx.2 hy.2 hl h
        · simp at h
    | _ => simp [eq] at h
  | .dict i d, y, hx, hy, h => by
    cases y with
    | dict j e =>
      simp only [eq] at h
      split at h
      · rename_i e; subst e
        refine Spec.Live.same_id (R := SameNumbers) SameNumbers.rfl hx ?_
        simp only [erase]
        rw [← hx.1, ← hy.1]
      · split at h
        · rename_i hl
          exact ⟨hl, eqEntries_true d e hx.2.2 hy.2.2 h⟩
        · simp at h
    | _ => simp [eq] at h
  | .inst i c d, y, hx, hy, h => by
    cases y with
    | inst j c' e =>
      simp only [eq] at h
      split at h
      · rename_i e; subst e
        refine Spec.Live.same_id (R := SameNumbers) SameNumbers.rfl hx ?_
        simp only [erase]
        rw [← hx.1, ← hy.1]
      · split at h
        · rename_i hc
          split at h
          · rename_i hl
            exact ⟨hc, hl, eqEntries_true d e hx.2.2.1 hy.2.2.1 h⟩
          · simp at h
        · simp at h
    | _ => simp [eq] at h
theorem eqItems_true {strict : Bool} {mem : ℕ → PyObj} : ∀ x y : List PyObj, LiveItems mem x →
    LiveItems mem y → x.length = y.length → eqItems strict x y = .ok true → SameItems SameNumbers x y
  | [], y, _, _, hl, h => by cases y <;> simp_all [SameItems]
  | x :: l, y, hx, hy, hl, h => by
    cases y with
    | nil => simp at hl
    | cons y m =>
      simp only [eqItems] at h
      split at h
      · cases h
      · cases h
      · rename_i h1
        exact ⟨eq_true x y hx.1 hy.1 h1, eqItems_true l m hx.2 hy.2 (by simpa using hl) h⟩
theorem eqEntries_true {strict : Bool} {mem : ℕ → PyObj} : ∀ x y : List (PyKey × PyObj),
    LiveEntries mem x → LiveEntries mem y → eqEntries strict x y = .ok true → SameEntries SameNumbers x y
  | [], y, _, _, h => by simp [SameEntries]
  | (k, x) :: d, e, hx, hy, h => by
    simp only [eqEntries] at h
    split at h
    · cases h
    · rename_i y hg
      split at h
      · cases h
      · cases h
      · rename_i h1
        exact ⟨⟨y, hg, eq_true x y hx.1 (LiveEntries.get hy hg) h1⟩, eqEntries_true d e hx.2 hy h⟩
end
/-! ### Completeness: objects with the same contents are never said to be different -/

mutual
/-- `P` holds of all arrays inside the object -/
def Arrays (P : NdArray → Prop) : PyObj → Prop
  | .num _ => True
  | .str _ => True
  | .arr _ a => P a
  | .list _ l => ArraysItems P l
  | .dict _ d => ArraysEntries P d
  | .inst _ _ d => ArraysEntries P d
def ArraysItems (P : NdArray → Prop) : List PyObj → Prop
  | [] => True
  | x :: l => Arrays P x ∧ ArraysItems P l
def ArraysEntries (P : NdArray → Prop) : List (PyKey × PyObj) → Prop
  | [] => True
  | (_, x) :: d => Arrays P x ∧ ArraysEntries P d
end

theorem ArraysEntries.get {P : NdArray → Prop} {e : List (PyKey × PyObj)} {k : PyKey} {y : PyObj}
    (h : ArraysEntries P e) (hg : Dict.get? e k = some y) : Arrays P y := by
  induction e with
  | nil => cases hg
  | cons p e ih =>
    obtain ⟨k', x⟩ := p
    simp only [Dict.get?] at hg
    split at hg
    · cases hg; exact h.1
    · exact ih h.2 hg

/-- the answer is "equal", or there is none -/
def TrueOrRaises (r : Except PyErr Bool) : Prop := r = .ok true ∨ r = .error .valueError

mutual
theorem eq_of_same {strict : Bool} : ∀ x y : PyObj, Arrays (fun a => a.data ≠ []) x →
    SameData Eq x y → TrueOrRaises (eq strict x y)
  | .num q, y, _, h => by cases y <;> simp_all [eq, SameData, TrueOrRaises]
  | .str s, y, _, h => by cases y <;> simp_all [eq, SameData, TrueOrRaises]
  | .arr i a, y, ha, h => by
    cases y with
    | arr j b =>
      simp only [SameData] at h
      subst h
      simp only [eq]
      split
      · exact .inl rfl
      · exact arrayEq_self strict a ha
    | _ => simp [SameData] at h
  | .list i l, y, ha, h => by
    cases y with
    | list j m =>
      simp only [SameData] at h
      simp only [eq]
      have := eqItems_of_same (strict := strict) l m ha h
      split
      · exact .inl rfl
      · rw [if_pos this.1]; exact this.2
    | _ => simp [SameData] at h
  | .dict i d, y, ha, h => by
    cases y with
    | dict j e =>
      simp only [SameData] at h
      simp only [eq]
      split
      · exact .inl rfl
      · rw [if_pos h.1]; exact eqEntries_of_same d e ha h.2
    | _ => simp [SameData] at h
  | .inst i c d, y, ha, h => by
    cases y with
    | inst j c' e =>
      simp only [SameData] at h
      simp only [eq]
      split
      · exact .inl rfl
      · rw [if_pos h.1, if_pos h.2.1]; exact eqEntries_of_same d e ha h.2.2
    | _ => simp [SameData] at h
theorem eqItems_of_same {strict : Bool} : ∀ x y : List PyObj, ArraysItems (fun a => a.data ≠ []) x →
    SameItems Eq x y → x.length = y.length ∧ TrueOrRaises (eqItems strict x y)
  | [], y, _, h => by
    simp only [SameItems] at h
    subst h
    exact ⟨rfl, .inl rfl⟩
  | x :: l, y, ha, h => by
    cases y with
    | nil => simp [SameItems] at h
    | cons y m =>
      simp only [SameItems] at h
      have h1 := eq_of_same (strict := strict) x y ha.1 h.1
      have h2 := eqItems_of_same (strict := strict) l m ha.2 h.2
      refine ⟨by simp [h2.1], ?_⟩
      simp only [eqItems]
      rcases h1 with h1 | h1 <;> rw [h1]
      · exact h2.2
      · exact .inr rfl
theorem eqEntries_of_same {strict : Bool} : ∀ x y : List (PyKey × PyObj),
    ArraysEntries (fun a => a.data ≠ []) x → SameEntries Eq x y → TrueOrRaises (eqEntries strict x y)
  | [], y, _, h => .inl rfl
  | (k, x) :: d, e, ha, h => by
    simp only [SameEntries] at h
    obtain ⟨⟨y, hg, h1⟩, h2⟩ := h
    have h1 := eq_of_same (strict := strict) x y ha.1 h1
    have h2 := eqEntries_of_same (strict := strict) d e ha.2 h2
    simp only [eqEntries, hg]
    rcases h1 with h1 | h1 <;> rw [h1]
    · exact h2
    · exact .inr rfl
end

theorem arrayEq_one_self (strict : Bool) {a : NdArray} (ha : OneElement a) : arrayEq strict a a = .ok true := by
  obtain ⟨r, hr⟩ := arrayEq_one strict ha ha
  rcases arrayEq_self strict a (by intro e; simp [OneElement, e] at ha) with h | h
  · exact h
  · rw [hr] at h; cases h

mutual
theorem eq_one_same {strict : Bool} : ∀ x y : PyObj, Arrays OneElement x →
    SameData Eq x y → eq strict x y = .ok true
  | .num q, y, _, h => by cases y <;> simp_all [eq, SameData]
  | .str s, y, _, h => by cases y <;> simp_all [eq, SameData]
  | .arr i a, y, ha, h => by
    cases y with
    | arr j b =>
      simp only [SameData] at h
      subst h
      simp only [eq]
      split
      · rfl
      · exact arrayEq_one_self strict ha
    | _ => simp [SameData] at h
  | .list i l, y, ha, h => by
    cases y with
    | list j m =>
      simp only [SameData] at h
      simp only [eq]
      have := eqItems_one_same (strict := strict) l m ha h
      split
      · rfl
      · rw [if_pos this.1]; exact this.2
    | _ => simp [SameData] at h
  | .dict i d, y, ha, h => by
    cases y with
    | dict j e =>
      simp only [SameData] at h
      simp only [eq]
      split
      · rfl
      · rw [if_pos h.1]; exact eqEntries_one_same d e ha h.2
    | _ => simp [SameData] at h
  | .inst i c d, y, ha, h => by
    cases y with
    | inst j c' e =>
      simp only [SameData] at h
      simp only [eq]
      split
      · rfl
      · rw [if_pos h.1, if_pos h.2.1]; exact eqEntries_one_same d e ha h.2.2
    | _ => simp [SameData] at h
theorem eqItems_one_same {strict : Bool} : ∀ x y : List PyObj, ArraysItems OneElement x →
    SameItems Eq x y → x.length = y.length ∧ eqItems strict x y = .ok true
  | [], y, _, h => by
    simp only [SameItems] at h
    subst h
    exact ⟨rfl, rfl⟩
  | x :: l, y, ha, h => by
    cases y with
    | nil => simp [SameItems] at h
    | cons y m =>
      simp only [SameItems] at h
      have h1 := eq_one_same (strict := strict) x y ha.1 h.1
      have h2 := eqItems_one_same (strict := strict) l m ha.2 h.2
      refine ⟨by simp [h2.1], ?_⟩
      simp only [eqItems]
      rw [h1]
      exact h2.2
theorem eqEntries_one_same {strict : Bool} : ∀ x y : List (PyKey × PyObj),
    ArraysEntries OneElement x → SameEntries Eq x y → eqEntries strict x y = .ok true
  | [], y, _, h => rfl
  | (k, x) :: d, e, ha, h => by
    simp only [SameEntries] at h
    obtain ⟨⟨y, hg, h1⟩, h2⟩ := h
    have h1 := eq_one_same (strict := strict) x y ha.1 h1
    have h2 := eqEntries_one_same (strict := strict) d e ha.2 h2
    simp only [eqEntries, hg]
    rw [h1]
    exact h2
end

/-! ### When there is an answer -/

mutual
theorem eq_total {strict : Bool} : ∀ x y : PyObj, Arrays OneElement x → Arrays OneElement y →
    ∃ b, eq strict x y = .ok b
  | .num q, y, _, h => by cases y <;> simp [eq]
  | .str s, y, _, h => by cases y <;> simp [eq]
  | .arr i a, y, ha, h => by
    cases y <;> simp only [eq, exists_eq', Except.ok.injEq]
    split
    · exact ⟨_, rfl⟩
    · exact arrayEq_one strict ha h
  | .list i l, y, ha, h => by
    cases y <;> simp only [eq, exists_eq', Except.ok.injEq]
    split
    · exact ⟨_, rfl⟩
    · split
      · exact eqItems_total l _ ha h
      · exact ⟨_, rfl⟩
  | .dict i d, y, ha, h => by
    cases y <;> simp only [eq, exists_eq', Except.ok.injEq]
    split
    · exact ⟨_, rfl⟩
    · split
      · exact eqEntries_total d _ ha h
      · exact ⟨_, rfl⟩
  | .inst i c d, y, ha, h => by
    cases y <;> simp only [eq, exists_eq', Except.ok.injEq]
    split
    · exact ⟨_, rfl⟩
    · split
      · split
        · exact eqEntries_total d _ ha h
        · exact ⟨_, rfl⟩
      · exact ⟨_, rfl⟩
theorem eqItems_total {strict : Bool} : ∀ x y : List PyObj, ArraysItems OneElement x →
    ArraysItems OneElement y → ∃ b, eqItems strict x y = .ok b
  | [], y, _, h => ⟨true, rfl⟩
  | x :: l, y, ha, h => by
    cases y with
    | nil => exact ⟨false, rfl⟩
    | cons y m =>
      obtain ⟨b, h1⟩ := eq_total (strict := strict) x y ha.1 h.1
      simp only [eqItems, h1]
      cases b
      · exact ⟨false, rfl⟩
      · exact eqItems_total l m ha.2 h.2
theorem eqEntries_total {strict : Bool} : ∀ x y : List (PyKey × PyObj), ArraysEntries OneElement x →
    ArraysEntries OneElement y → ∃ b, eqEntries strict x y = .ok b
  | [], y, _, h => ⟨true, rfl⟩
  | (k, x) :: d, e, ha, h => by
    simp only [eqEntries]
    cases hg : Dict.get? e k with
    | none => exact ⟨false, rfl⟩
    | some y =>
      obtain ⟨b, h1⟩ := eq_total (strict := strict) x y ha.1 (h.get hg)
      simp only [h1]
      cases b
      · exact ⟨false, rfl⟩
      · exact eqEntries_total d e ha.2 h
end

mutual
theorem eq_error {strict : Bool} {er : PyErr} : ∀ x y : PyObj, eq strict x y = .error er → er = .valueError
  | .num q, y, h => by cases y <;> simp [eq] at h
  | .str s, y, h => by cases y <;> simp [eq] at h
  | .arr i a, y, h => by
    cases y <;> simp only [eq, reduceCtorEq] at h
    split at h
    · cases h
    · exact arrayEq_error h
  | .list i l, y, h => by
    cases y <;> simp only [eq, reduceCtorEq] at h
    split at h
    · cases h
    · split at h
      · exact eqItems_error l _ h
      · cases h
  | .dict i d, y, h => by
    cases y <;> simp only [eq, reduceCtorEq] at h
    split at h
    · cases h
    · split at h
      · exact eqEntries_error d _ h
      · cases h
  | .inst i c d, y, h => by
    cases y <;> simp only [eq, reduceCtorEq] at h
    split at h
    · cases h
    · split at h
      · split at h
        · exact eqEntries_error d _ h
        · cases h
      · cases h
theorem eqItems_error {strict : Bool} {er : PyErr} : ∀ x y : List PyObj,
    eqItems strict x y = .error er → er = .valueError
  | [], y, h => by cases h
  | x :: l, y, h => by
    cases y with
    | nil => cases h
    | cons y m =>
      simp only [eqItems] at h
      split at h
      · rename_i h1; cases h; exact eq_error x y h1
      · cases h
      · exact eqItems_error l m h
theorem eqEntries_error {strict : Bool} {er : PyErr} : ∀ x y : List (PyKey × PyObj),
    eqEntries strict x y = .error er → er = .valueError
  | [], y, h => by cases h
  | (k, x) :: d, e, h => by
    simp only [eqEntries] at h
    split at h
    · cases h
    · split at h
      · rename_i h1; cases h; exact eq_error x _ h1
      · cases h
      · exact eqEntries_error d e h
end

/-! ### The operator -/

theorem equal_true {strict : Bool} {mem : ℕ → PyObj} {x y : PyObj} (hx : Live mem x) (hy : Live mem y)
    (h : equal strict x y = .ok true) : SameData SameNumbers x y := by
  unfold equal at h
  split at h
  · split at h
    · split at h
      · rename_i hc hl
        exact ⟨hc, hl, eqEntries_true _ _ hx.2.2.1 hy.2.2.1 h⟩
      · cases h
    · cases h
  · exact eq_true x y hx hy h

theorem equal_of_same {strict : Bool} {x y : PyObj} (ha : Arrays (fun a => a.data ≠ []) x)
    (h : SameData Eq x y) : TrueOrRaises (equal strict x y) := by
  unfold equal
  split
  · simp only [SameData] at h
    rw [if_pos h.1, if_pos h.2.1]
    exact eqEntries_of_same _ _ ha h.2.2
  · exact eq_of_same x y ha h

theorem equal_one_same {strict : Bool} {x y : PyObj} (ha : Arrays OneElement x)
    (h : SameData Eq x y) : equal strict x y = .ok true := by
  unfold equal
  split
  · simp only [SameData] at h
    rw [if_pos h.1, if_pos h.2.1]
    exact eqEntries_one_same _ _ ha h.2.2
  · exact eq_one_same x y ha h

theorem equal_total {strict : Bool} {x y : PyObj} (hx : Arrays OneElement x) (hy : Arrays OneElement y) :
    ∃ b, equal strict x y = .ok b := by
  unfold equal
  split
  · split
    · split
      · exact eqEntries_total _ _ hx hy
      · exact ⟨_, rfl⟩
    · exact ⟨_, rfl⟩
  · exact eq_total x y hx hy

theorem equal_error {strict : Bool} {x y : PyObj} {e : PyErr} (h : equal strict x y = .error e) :
    e = .valueError := by
  unfold equal at h
  split at h
  · split at h
    · split at h
      · exact eqEntries_error _ _ h
      · cases h
    · cases h
  · exact eq_error x y h

theorem eq_self (strict : Bool) (x : PyObj) : eq strict x x = .ok true := by
  cases x <;> simp [eq]

theorem eqEntries_self (strict : Bool) {d e : List (PyKey × PyObj)}
    (h : ∀ p ∈ d, Dict.get? e p.1 = some p.2) : eqEntries strict d e = .ok true := by
  induction d with
  | nil => rfl
  | cons p d ih =>
    obtain ⟨k, x⟩ := p
    have h1 := h (k, x) List.mem_cons_self
    simp only at h1
    simp only [eqEntries, h1, eq_self]
    exact ih fun p hp => h p (List.mem_cons_of_mem _ hp)

theorem equal_self (strict : Bool) {mem : ℕ → PyObj} {x : PyObj} (hx : Live mem x) :
    equal strict x x = .ok true := by
  cases x with
  | inst i c d =>
    simp only [equal, if_true]
    exact eqEntries_self strict fun p hp => Dict.get?_of_mem hx.2.1 hp
  | num q => exact eq_self strict _
  | str q => exact eq_self strict _
  | arr i q => exact eq_self strict _
  | list i q => exact eq_self strict _
  | dict i q => exact eq_self strict _

end Hadar
