import Verif.Proofs.DtoStudy

/-! # Lemmas on the hash of Python objects -/

namespace Hadar

open Spec PyObj

/-! ### Sorting attributes by name -/

/-- the order of attributes -/
abbrev before (a b : PyKey × ℤ) : Prop := keyBefore a.1 b.1 = true

instance : Std.Total before where
  total a b := by
    obtain ⟨a, _⟩ := a
    obtain ⟨b, _⟩ := b
    cases a <;> cases b <;> simp [before, keyBefore]
    exact le_total _ _

instance : IsTrans (PyKey × ℤ) before where
  trans a b c := by
    obtain ⟨a, _⟩ := a
    obtain ⟨b, _⟩ := b
    obtain ⟨c, _⟩ := c
    cases a <;> cases b <;> cases c <;> simp [before, keyBefore]
    exact le_trans

theorem sort_perm {l m : List (PyKey × ℤ)} (h : l.Perm m) (hn : (l.map Prod.fst).Nodup)
    (hs : ∀ p ∈ l, ∃ s, p.1 = .str s) : l.insertionSort before = m.insertionSort before := by
  refine List.Perm.eq_of_pairwise ?_ (List.pairwise_insertionSort before l)
    (List.pairwise_insertionSort before m)
    ((List.perm_insertionSort before l).trans (h.trans (List.perm_insertionSort before m).symm))
  intro a b ha hb hab hba
  rw [List.mem_insertionSort] at ha hb
  rw [← h.mem_iff] at hb
  obtain ⟨s, hs1⟩ := hs a ha
  obtain ⟨t, ht1⟩ := hs b hb
  simp only [before, hs1, ht1, keyBefore, decide_eq_true_eq] at hab hba
  have e : a.1 = b.1 := by rw [hs1, ht1, le_antisymm hab hba]
  exact List.inj_on_of_nodup_map hn ha hb e

/-! ### Hash of a dict of attributes -/

theorem hashEntries_ok {h : Hashes} {d : List (PyKey × PyObj)} {l : List (PyKey × ℤ)}
    (hd : hashEntries h d = .ok l) :
    l.map Prod.fst = d.map Prod.fst ∧
      (∀ k z, (k, z) ∈ l → ∃ x, (k, x) ∈ d ∧ PyObj.hash h x = .ok z) ∧
      ∀ k x, (k, x) ∈ d → ∃ z, (k, z) ∈ l ∧ PyObj.hash h x = .ok z := by
  induction d generalizing l with
  | nil =>
    simp only [hashEntries, Except.ok.injEq] at hd
    subst hd
    simp
  | cons p d ih =>
    obtain ⟨k, x⟩ := p
    simp only [hashEntries] at hd
    split at hd
    · cases hd
    · rename_i z hz
      split at hd
      · cases hd
      · rename_i l' hl
        cases hd
        obtain ⟨h1, h2, h3⟩ := ih hl
        refine ⟨by simp [h1], ?_, ?_⟩
        · intro k' z' hm
          rcases List.mem_cons.1 hm with e | hm
          · cases e; exact ⟨x, List.mem_cons_self, hz⟩
          · obtain ⟨x', hx', hh⟩ := h2 k' z' hm
            exact ⟨x', List.mem_cons_of_mem _ hx', hh⟩
        · intro k' x' hm
          rcases List.mem_cons.1 hm with e | hm
          · cases e; exact ⟨z, List.mem_cons_self, hz⟩
          · obtain ⟨z', hz', hh⟩ := h3 k' x' hm
            exact ⟨z', List.mem_cons_of_mem _ hz', hh⟩

theorem hashEntries_total {h : Hashes} {d : List (PyKey × PyObj)}
    (hd : ∀ p ∈ d, ∃ z, PyObj.hash h p.2 = .ok z) : ∃ l, hashEntries h d = .ok l := by
  induction d with
  | nil => exact ⟨[], rfl⟩
  | cons p d ih =>
    obtain ⟨k, x⟩ := p
    obtain ⟨z, hz⟩ := hd _ List.mem_cons_self
    obtain ⟨l, hl⟩ := ih fun p hp => hd p (List.mem_cons_of_mem _ hp)
    simp only at hz
    exact ⟨(k, z) :: l, by simp only [hashEntries, hz, hl]⟩

mutual
theorem hash_error {h : Hashes} {er : PyErr} : ∀ x : PyObj, PyObj.hash h x = .error er → er = .typeError
  | .num q, he => by simp [PyObj.hash] at he
  | .str q, he => by simp [PyObj.hash] at he
  | .arr i q, he => by simp [PyObj.hash] at he; exact he.symm
  | .list i q, he => by simp [PyObj.hash] at he; exact he.symm
  | .dict i q, he => by simp [PyObj.hash] at he; exact he.symm
  | .inst i c d, he => by
    simp only [PyObj.hash] at he
    split at he
    · cases he; rfl
    · split at he
      · rename_i e1; cases he; exact hashEntries_error d e1
      · cases he
theorem hashEntries_error {h : Hashes} {er : PyErr} : ∀ d : List (PyKey × PyObj),
    hashEntries h d = .error er → er = .typeError
  | [], he => by simp [hashEntries] at he
  | (k, x) :: d, he => by
    simp only [hashEntries] at he
    split at he
    · rename_i e1; cases he; exact hash_error x e1
    · split at he
      · rename_i e1; cases he; exact hashEntries_error d e1
      · cases he
end

mutual
theorem hash_erase {h : Hashes} : ∀ x : PyObj, PyObj.hash h x.erase = PyObj.hash h x
  | .num q => rfl
  | .str q => rfl
  | .arr i q => rfl
  | .list i q => rfl
  | .dict i q => rfl
  | .inst i c d => by simp only [erase, PyObj.hash, hashEntries_erase d]
theorem hashEntries_erase {h : Hashes} : ∀ d : List (PyKey × PyObj),
    hashEntries h (eraseEntries d) = hashEntries h d
  | [] => rfl
  | (k, x) :: d => by simp only [eraseEntries, hashEntries, hash_erase x, hashEntries_erase d]
end

/-! ### Objects with the same contents -/

theorem sameEntries_get {R : NdArray → NdArray → Prop} {d e : List (PyKey × PyObj)} (h : SameEntries R d e)
    {k : PyKey} {x : PyObj} (hx : (k, x) ∈ d) : ∃ y, Dict.get? e k = some y ∧ SameData R x y := by
  induction d with
  | nil => cases hx
  | cons p d ih =>
    obtain ⟨k', x'⟩ := p
    simp only [SameEntries] at h
    rcases List.mem_cons.1 hx with e | hx
    · cases e; exact h.1
    · exact ih h.2 hx

/-- objects with the same contents have the same hash -/
theorem hash_same {R : NdArray → NdArray → Prop} {mem : ℕ → PyObj} {h : Hashes} (n : ℕ) : ∀ x y : PyObj,
    sizeOf x ≤ n → Live mem x → Live mem y → SameData R x y → ∀ z, PyObj.hash h x = .ok z →
      PyObj.hash h y = .ok z := by
  induction n with
  | zero => intro x; cases x <;> simp
  | succ n ih =>
    intro x y hn hx hy hs z hz
    cases x with
    | num q => cases y <;> simp_all [SameData, PyObj.hash]
    | str q => cases y <;> simp_all [SameData, PyObj.hash]
    | arr i q => simp [PyObj.hash] at hz
    | list i q => simp [PyObj.hash] at hz
    | dict i q => simp [PyObj.hash] at hz
    | inst i c d =>
      cases y with
      | inst j c' e =>
        obtain ⟨hc, hl, he⟩ := hs
        subst hc
        obtain ⟨_, nx, lx, sx⟩ := hx
        obtain ⟨_, ny, ly, sy⟩ := hy
        simp only [PyObj.hash] at hz ⊢
        split at hz
        · cases hz
        · rename_i hf
          rw [if_neg hf]
          split at hz
          · cases hz
          · rename_i l hdl
            cases hz
            obtain ⟨k1, k2, k3⟩ := hashEntries_ok hdl
            have key : ∀ k x, (k, x) ∈ d → ∀ y, Dict.get? e k = some y → SameData R x y →
                ∀ z, PyObj.hash h x = .ok z → PyObj.hash h y = .ok z := by
              intro k x hm y hy hs z hz
              refine ih x y ?_ ?_ (ly.get hy) hs z hz
              · have := List.sizeOf_lt_of_mem hm
                simp only [PyObj.inst.sizeOf_spec, Prod.mk.sizeOf_spec] at this hn
                omega
              · exact lx.get (Dict.get?_of_mem nx hm)
            have hsub : d.map Prod.fst ⊆ e.map Prod.fst := by
              intro k hk
              obtain ⟨p, hp, rfl⟩ := List.mem_map.1 hk
              obtain ⟨w, hw, _⟩ := sameEntries_get he hp
              exact List.mem_map.2 ⟨_, Dict.mem_of_get? hw, rfl⟩
            have hperm := (List.subperm_of_subset nx hsub).perm_of_length_le (by simp [hl])
            obtain ⟨m, hm⟩ := hashEntries_total (h := h) (d := e) (by
              rintro ⟨k, y⟩ hp
              have : k ∈ d.map Prod.fst := hperm.mem_iff.2 (List.mem_map.2 ⟨_, hp, rfl⟩)
              obtain ⟨⟨k', x⟩, hx, e1⟩ := List.mem_map.1 this
              simp only at e1
              subst e1
              obtain ⟨y', hy', hs⟩ := sameEntries_get he hx
              rw [Dict.get?_of_mem ny hp] at hy'
              cases hy'
              obtain ⟨z, _, hz⟩ := k3 _ _ hx
              exact ⟨z, key _ _ hx _ (Dict.get?_of_mem ny hp) hs z hz⟩)
            rw [hm]
            obtain ⟨m1, m2, m3⟩ := hashEntries_ok hm
            have hnl : l.Nodup := by
              have : (l.map Prod.fst).Nodup := by rw [k1]; exact nx
              exact List.Nodup.of_map _ this
            have hlm : l.Perm m := by
              refine (List.subperm_of_subset hnl ?_).perm_of_length_le ?_
              · rintro ⟨k, z⟩ hkz
                obtain ⟨x, hx, hz⟩ := k2 _ _ hkz
                obtain ⟨y, hy, hs⟩ := sameEntries_get he hx
                obtain ⟨z', hz', hh⟩ := m3 k y (Dict.mem_of_get? hy)
                rw [key _ _ hx _ hy hs z hz] at hh
                cases hh
                exact hz'
              · have e1 := congrArg List.length k1
                have e2 := congrArg List.length m1
                simp only [List.length_map] at e1 e2
                omega
            have hss := sort_perm hlm (by rw [k1]; exact nx) (fun p hp => by
              obtain ⟨x, hx, _⟩ := k2 p.1 p.2 hp
              exact sx _ hx)
            simp only [hss]
      | _ => simp [SameData] at hs

end Hadar
