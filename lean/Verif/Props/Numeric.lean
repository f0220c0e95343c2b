import Verif.Proofs.Numeric

/-!
# Properties C01-C04: quantities and costs given by the user
-/

namespace Hadar.Props

open Hadar Hadar.Spec

/-- values the user builds from numbers (not an already wrapped `NumericalValue`) -/
def IsRaw (r : Raw) : Prop := ∀ v, r ≠ .val v

private theorem ofArray_means {f : Factory} {a : NdArray} {v : NumVal} (h : f.ofArray a = .ok v)
    {s t : ℕ} {q : ℚ} (hq : v.at? f.horizon s t = some q) : Means f.horizon f.nbScn (.array a) s t q := by
  unfold Factory.ofArray at h
  split_ifs at h with h1 h2 h3 <;> cases h
  · exact .perTime _ _ _ _ h1 hq
  · exact .perScenario _ _ _ _ h2 hq
  · exact .full _ _ _ _ h3 hq

private theorem singletons {rows : List (List ℚ)} (hl : ∀ r ∈ rows, r.length = 1) :
    ∃ c : List ℚ, rows = c.map (fun x => [x]) ∧ rows.flatten = c := by
  induction rows with
  | nil => exact ⟨[], rfl, rfl⟩
  | cons r rows ih =>
    obtain ⟨c, e1, e2⟩ := ih (fun x hx => hl x (List.mem_cons_of_mem _ hx))
    obtain ⟨x, rfl⟩ := List.length_eq_one_iff.mp (hl r (by simp))
    exact ⟨x :: c, by simp [← e1], by simp [e2]⟩

private theorem ofJson_means {f : Factory} {j : Json} {v : NumVal} (h : f.ofJson j = .ok v)
    {s t : ℕ} (ht : t < f.horizon) {q : ℚ}
    (hq : v.at? f.horizon s t = some q) : MeansJson f.horizon j s t q := by
  unfold Factory.ofJson at h
  split at h
  · cases h; simp [NumVal.at?] at hq; subst hq; exact .number _ _ _
  · rename_i l
    simp only [bind, Except.bind] at h
    split at h
    · cases h
    · rename_i a ha
      have hnd := Json.toNd_ok ha
      unfold Factory.ofArray at h
      split_ifs at h with h1 h2 h3 <;> cases h <;> simp only [NumVal.at?] at hq
      · rw [h1] at hnd
        obtain ⟨e, el⟩ := Json.nd?_one hnd
        rw [e]
        exact .perTime _ _ _ _ el hq
      · rw [h2] at hnd
        obtain ⟨rows, e1, e2, e3, e4, e5⟩ := Json.nd?_two hnd
        obtain ⟨c, ec, ef⟩ := singletons e4
        rw [e1, ec]
        exact .perScenario _ _ _ _ (by rw [← ef, ← e2]; exact hq)
      · rw [h3] at hnd
        obtain ⟨rows, e1, e2, e3, e4, e5⟩ := Json.nd?_two hnd
        rw [e1]
        rw [e2, getElem?_flatten_const e4 _ _ ht] at hq
        cases hr : rows[s]? with
        | none => simp [hr] at hq
        | some r => exact .full _ _ _ _ _ e4 hr (by simpa [hr] using hq)
  · cases h

/-- **C01.** Whatever accepted value the user gives, the study reads at scenario `s`, time `t` the
number the user means there. -/
theorem C01_broadcast (h n : ℕ) (r : Raw) (v : NumVal) (hr : IsRaw r)
    (hc : (Factory.mk h n).create r = .ok v) (s t : ℕ) (hs : s < n) (ht : t < h) :
    ∃ q, v.getitem s t = .ok q ∧ Means h n r s t q := by
  have hv : v.Sized h n := Factory.create_sized hr hc
  obtain ⟨q, hq⟩ := hv.at?_some hs ht
  refine ⟨q, hv.getitem hs ht hq, ?_⟩
  unfold Factory.create at hc
  split at hc
  · exact absurd rfl (hr _)
  · cases hc; simp [NumVal.at?] at hq; subst hq; exact .number _ _ _
  · exact ofArray_means (f := ⟨h, n⟩) hc hq
  · split at hc
    · rename_i o _ j hj
      exact .dict _ _ _ _ _ hj (ofJson_means (f := ⟨h, n⟩) hc ht hq)
    · cases hc
  · exact .list _ _ _ _ (ofJson_means (f := ⟨h, n⟩) hc ht hq)
  · cases hc

private theorem jrow_inj {a b : List ℚ} (h : jrow a = jrow b) : a = b := by
  simp only [jrow, Json.arr.injEq] at h
  exact List.map_injective_iff.mpr (fun x y hxy => by simpa using hxy) h

private theorem jrows_inj {a b : List (List ℚ)} (h : jrows a = jrows b) : a = b := by
  simp only [jrows, Json.arr.injEq] at h
  exact List.map_injective_iff.mpr (fun x y hxy => jrow_inj hxy) h

private theorem jrow_jrows {a : List ℚ} {b : List (List ℚ)} (h : jrow a = jrows b) :
    a = [] ∧ b = [] := by
  simp only [jrow, jrows, Json.arr.injEq] at h
  cases a with
  | nil => cases b with
    | nil => simp
    | cons r b => simp at h
  | cons x a => cases b with
    | nil => simp at h
    | cons r b => simp [jrow] at h

private theorem meansJson_unique {h : ℕ} {j : Json} {s t : ℕ} (ht : t < h) {q q' : ℚ}
    (h1 : MeansJson h j s t q) (h2 : MeansJson h j s t q') : q = q' := by
  generalize hj : j = j' at h2
  cases h1 with
  | number =>
    cases h2 with
    | number => simpa using hj
    | _ => simp [jrow, jrows] at hj
  | perTime r _ _ _ hl hq =>
    cases h2 with
    | number => simp [jrow] at hj
    | perTime r' _ _ _ hl' hq' =>
      have := jrow_inj hj; subst this; simpa [hq] using hq'
    | perScenario c _ _ _ hq' =>
      have := (jrow_jrows hj).1; subst this; simp at hq
    | full m r' _ _ _ hl' hr' hq' =>
      have := (jrow_jrows hj).1; subst this; simp at hq
  | perScenario c _ _ _ hq =>
    cases h2 with
    | number => simp [jrows] at hj
    | perTime r' _ _ _ hl' hq' =>
      have := (jrow_jrows hj.symm).1; subst this; simp at hq'
    | perScenario c' _ _ _ hq' =>
      have := jrows_inj hj
      have := List.map_injective_iff.mpr (fun x y (hxy : [x] = [y]) => by simpa using hxy) this
      subst this; simpa [hq] using hq'
    | full m r' _ _ _ hl' hr' hq' =>
      have := jrows_inj hj; subst this
      simp only [List.getElem?_map, hq, Option.map_some, Option.some.injEq] at hr'
      subst hr'
      have hmem : [q] ∈ c.map (fun x => [x]) :=
        List.mem_map.mpr ⟨q, List.mem_of_getElem? hq, rfl⟩
      have := hl' _ hmem
      simp only [List.length_cons, List.length_nil] at this
      have ht0 : t = 0 := by omega
      subst ht0
      simpa using hq'
  | full m r _ _ _ hl hr hq =>
    cases h2 with
    | number => simp [jrows] at hj
    | perTime r' _ _ _ hl' hq' =>
      have := (jrow_jrows hj.symm).1; subst this; simp at hq'
    | perScenario c _ _ _ hq' =>
      have := jrows_inj hj; subst this
      simp only [List.getElem?_map, hq', Option.map_some, Option.some.injEq] at hr
      subst hr
      have hmem : [q'] ∈ c.map (fun x => [x]) :=
        List.mem_map.mpr ⟨q', List.mem_of_getElem? hq', rfl⟩
      have := hl _ hmem
      simp only [List.length_cons, List.length_nil] at this
      have ht0 : t = 0 := by omega
      subst ht0
      simpa using hq.symm
    | full m' r' _ _ _ hl' hr' hq' =>
      have := jrows_inj hj; subst this
      rw [hr] at hr'; cases hr'
      simpa [hq] using hq'

/-- **C01**, counting from the end: `v[s - nb_scn, t]`, `v[s, t - horizon]` and `v[s - nb_scn, t - horizon]` are `v[s, t]`. -/
theorem C01_negative (h n : ℕ) (r : Raw) (v : NumVal) (hr : IsRaw r)
    (hc : (Factory.mk h n).create r = .ok v) (s t : ℕ) (hs : s < n) (ht : t < h) (i j : ℤ)
    (hi : i = s ∨ i = (s : ℤ) - n) (hj : j = t ∨ j = (t : ℤ) - h) : v.getitem i j = v.getitem s t := by
  have hv : v.Sized h n := Factory.create_sized hr hc
  obtain ⟨q, hq⟩ := hv.at?_some hs ht
  rw [hv.getitem hs ht hq, hv.getitem_neg hs ht hi hj hq]

/-- the last cell of a matrix, read from the end -/
example : ∃ v, (Factory.mk 3 2).create (.array ⟨[2, 3], [1, 2, 3, 4, 5, 6], rfl⟩) = .ok v ∧
    v.getitem (-1) (-1) = .ok 6 ∧ v.getitem 1 2 = .ok 6 ∧ v.getitem (-2) (-1) = .ok 3 := ⟨_, rfl, by decide +kernel⟩

/-- **C01** (second half): what the user means is unambiguous, so that `C01_broadcast` determines the
value read. -/
theorem C01_broadcast_unique (h n : ℕ) (r : Raw) (s t : ℕ) (ht : t < h) (q q' : ℚ)
    (h1 : Means h n r s t q) (h2 : Means h n r s t q') : q = q' := by
  cases h1 with
  | number => cases h2; rfl
  | perTime a _ _ _ hsh hq =>
    cases h2 with
    | perTime _ _ _ _ hsh' hq' => simpa [hq] using hq'
    | perScenario _ _ _ _ hsh' hq' => rw [hsh] at hsh'; simp at hsh'
    | full _ _ _ _ hsh' hq' => rw [hsh] at hsh'; simp at hsh'
  | perScenario a _ _ _ hsh hq =>
    cases h2 with
    | perTime _ _ _ _ hsh' hq' => rw [hsh] at hsh'; simp at hsh'
    | perScenario _ _ _ _ hsh' hq' => simpa [hq] using hq'
    | full _ _ _ _ hsh' hq' =>
      rw [hsh] at hsh'
      simp only [List.cons.injEq, and_true, true_and] at hsh'
      subst hsh'
      have : t = 0 := by omega
      subst this
      simpa [hq] using hq'
  | full a _ _ _ hsh hq =>
    cases h2 with
    | perTime _ _ _ _ hsh' hq' => rw [hsh] at hsh'; simp at hsh'
    | perScenario _ _ _ _ hsh' hq' =>
      rw [hsh] at hsh'
      simp only [List.cons.injEq, and_true, true_and] at hsh'
      subst hsh'
      have : t = 0 := by omega
      subst this
      simpa [hq'] using hq.symm
    | full _ _ _ _ hsh' hq' => simpa [hq] using hq'
  | list j _ _ _ hj =>
    cases h2 with
    | list _ _ _ _ hj' => exact meansJson_unique ht hj hj'
    | dict o _ _ _ _ ho hj' => cases hj
  | dict o j _ _ _ ho hj =>
    cases h2 with
    | list _ _ _ _ hj' => cases hj'
    | dict _ j' _ _ _ ho' hj' =>
      rw [ho] at ho'; cases ho'
      exact meansJson_unique ht hj hj'

/-- **C02.** Flattening gives `nb_scn * horizon` numbers and position `s * horizon + t` is the value
looked up at `(s, t)`. -/
theorem C02_flatten (h n : ℕ) (r : Raw) (v : NumVal) (hr : IsRaw r)
    (hc : (Factory.mk h n).create r = .ok v) :
    v.flatten.length = n * h ∧
      ∀ s t, s < n → t < h → ∃ q, v.getitem s t = .ok q ∧ v.flatten[s * h + t]? = some q := by
  have hv : v.Sized h n := Factory.create_sized hr hc
  refine ⟨hv.flatten_length, fun s t hs ht => ?_⟩
  obtain ⟨q, hq⟩ := hv.at?_some hs ht
  exact ⟨q, hv.getitem hs ht hq, by rw [hv.flatten_get hs ht, hq]⟩

private theorem ofArray_ok_iff (f : Factory) (a : NdArray) :
    (∃ v, f.ofArray a = .ok v) ↔
      (a.shape = [f.horizon] ∨ a.shape = [f.nbScn, 1] ∨ a.shape = [f.nbScn, f.horizon]) := by
  unfold Factory.ofArray
  split_ifs <;> simp_all

private theorem ofJson_ok_iff (f : Factory) (j : Json) :
    (∃ v, f.ofJson j = .ok v) ↔ AcceptsJson f.horizon f.nbScn j := by
  constructor
  · rintro ⟨v, hv⟩
    unfold Factory.ofJson at hv
    split at hv
    · exact .number _
    · simp only [bind, Except.bind] at hv
      split at hv
      · cases hv
      · rename_i l a ha
        have hnd := Json.toNd_ok ha
        rcases (ofArray_ok_iff f a).mp ⟨v, hv⟩ with h1 | h1 | h1
        · rw [h1] at hnd
          obtain ⟨e, el⟩ := Json.nd?_one hnd
          rw [e]; exact .perTime _ el
        · rw [h1] at hnd
          obtain ⟨rows, e1, e2, e3, e4, e5⟩ := Json.nd?_two hnd
          obtain ⟨c, ec, ef⟩ := singletons e4
          rw [e1, ec]
          refine .perScenario _ ?_ ?_
          · rw [ec] at e3; simpa using e3
          · rintro rfl; exact e5 (by simp [ec])
        · rw [h1] at hnd
          obtain ⟨rows, e1, e2, e3, e4, e5⟩ := Json.nd?_two hnd
          rw [e1]; exact .full _ e3 e5 e4
    · cases hv
  · intro hj
    have key : ∀ l sh d, Json.nd? (.arr l) = some (sh, d) → d.length = sh.prod →
        (sh = [f.horizon] ∨ sh = [f.nbScn, 1] ∨ sh = [f.nbScn, f.horizon]) →
        ∃ v, f.ofJson (.arr l) = .ok v := by
      intro l sh d hnd hl hsh
      have : Json.toNd (.arr l) = .ok ⟨sh, d, hl⟩ := by
        unfold Json.toNd; rw [hnd]; simp [hl]
      obtain ⟨v, hv⟩ := (ofArray_ok_iff f ⟨sh, d, hl⟩).mpr hsh
      exact ⟨v, by simp [Factory.ofJson, this, bind, Except.bind, hv]⟩
    cases hj with
    | number q => exact ⟨_, rfl⟩
    | perTime r hl => exact key _ _ _ (Json.nd?_jrow r) (by simp) (.inl (by simp [hl]))
    | perScenario c hl h0 =>
      have hk : ∀ r ∈ c.map (fun x => [x]), r.length = 1 := by
        intro r hr; obtain ⟨x, _, rfl⟩ := List.mem_map.mp hr; rfl
      refine key _ _ _ (Json.nd?_jrows (by simpa using h0) hk) ?_ (.inr (.inl (by simp [hl])))
      rw [length_flatten_const hk]; simp
    | full m hm h0 hl =>
      refine key _ _ _ (Json.nd?_jrows h0 hl) ?_ (.inr (.inr (by simp [hm])))
      rw [length_flatten_const hl]; simp

/-- **C03.** A value is accepted exactly when it has an acceptable form and size; everything else
raises. -/
theorem C03_accepts_iff (h n : ℕ) (r : Raw) :
    (∃ v, (Factory.mk h n).create r = .ok v) ↔ Accepts h n r := by
  constructor
  · rintro ⟨v, hv⟩
    unfold Factory.create at hv
    split at hv
    · exact .built _
    · exact .number _
    · exact .array _ ((ofArray_ok_iff ⟨h, n⟩ _).mp ⟨v, hv⟩)
    · split at hv
      · rename_i hj
        exact .dict _ _ hj ((ofJson_ok_iff ⟨h, n⟩ _).mp ⟨v, hv⟩)
      · cases hv
    · exact .list _ ((ofJson_ok_iff ⟨h, n⟩ _).mp ⟨v, hv⟩)
    · cases hv
  · intro ha
    cases ha with
    | number q => exact ⟨_, rfl⟩
    | built v => exact ⟨_, rfl⟩
    | array a hs => exact (ofArray_ok_iff ⟨h, n⟩ a).mpr hs
    | list j hj =>
      obtain ⟨v, hv⟩ := (ofJson_ok_iff ⟨h, n⟩ j).mpr hj
      cases j with
      | obj o => cases hv
      | _ => exact ⟨v, hv⟩
    | dict o j ho hj =>
      obtain ⟨v, hv⟩ := (ofJson_ok_iff ⟨h, n⟩ j).mpr hj
      exact ⟨v, by simp [Factory.create, ho, hv]⟩

/-- **C04.** Out-of-range lookups raise `IndexError`. -/
theorem C04_out_of_range (h n : ℕ) (r : Raw) (v : NumVal) (hr : IsRaw r)
    (hc : (Factory.mk h n).create r = .ok v) (s t : ℕ) (ho : n ≤ s ∨ h ≤ t) :
    v.getitem s t = .error .indexError :=
  (Factory.create_sized (f := ⟨h, n⟩) hr hc).getitem_out ho

/-! ### The hypotheses are satisfiable -/

/-- a 2 scenarios x 3 time steps nested list is accepted, with distinct values everywhere -/
example : ∃ v, (Factory.mk 3 2).create (.json (jrows [[1, 2, 3], [4, 5, 6]])) = .ok v ∧
    v.getitem 1 2 = .ok 6 ∧ v.getitem 0 1 = .ok 2 ∧ v.getitem 2 0 = .error .indexError ∧
    v.flatten = [1, 2, 3, 4, 5, 6] :=
  ⟨⟨.matrix ⟨[2, 3], [1, 2, 3, 4, 5, 6], rfl⟩, 3, 2⟩, by decide +kernel⟩

example : ∃ v, (Factory.mk 3 2).create (.json (jrow [1, 2, 3])) = .ok v ∧
    v.getitem 1 2 = .ok 3 ∧ v.flatten = [1, 2, 3, 1, 2, 3] :=
  ⟨⟨.row ⟨[3], [1, 2, 3], rfl⟩, 3, 2⟩, by decide +kernel⟩

example : ∃ v, (Factory.mk 3 2).create (.json (jrows [[7], [8]])) = .ok v ∧
    v.getitem 1 2 = .ok 8 ∧ v.flatten = [7, 7, 7, 8, 8, 8] :=
  ⟨⟨.column ⟨[2, 1], [7, 8], rfl⟩, 3, 2⟩, by decide +kernel⟩

/-- a transposed matrix is refused -/
example : ¬ Accepts 3 2 (.json (jrows [[1, 2], [3, 4], [5, 6]])) := by
  rw [← C03_accepts_iff]
  rintro ⟨v, hv⟩
  have : (Factory.mk 3 2).create (.json (jrows [[1, 2], [3, 4], [5, 6]])) = .error .valueError := by
    decide +kernel
  rw [this] at hv; cases hv

/-! ### The theorems applied to concrete cases -/

example := C01_broadcast 3 2 (.array ⟨[2, 3], [1, 2, 3, 4, 5, 6], rfl⟩) _ (by simp [IsRaw]) rfl 1 2 (by decide) (by decide)
example := C01_broadcast 3 2 (.json (jrows [[7], [8]])) ⟨.column ⟨[2, 1], [7, 8], rfl⟩, 3, 2⟩ (by simp [IsRaw])
  (by decide +kernel) 1 2 (by decide) (by decide)
example := C01_broadcast_unique 3 2 (.json (jrow [1, 2, 3])) 1 2 (by decide) 3 3
  (.list _ _ _ _ (.perTime _ _ _ _ rfl rfl)) (.list _ _ _ _ (.perTime _ _ _ _ rfl rfl))
example := C02_flatten 3 2 (.array ⟨[2, 3], [1, 2, 3, 4, 5, 6], rfl⟩) _ (by simp [IsRaw]) rfl
example := C02_flatten 3 2 (.json (jrow [1, 2, 3])) ⟨.row ⟨[3], [1, 2, 3], rfl⟩, 3, 2⟩ (by simp [IsRaw]) (by decide +kernel)
example := C04_out_of_range 3 2 (.array ⟨[2, 3], [1, 2, 3, 4, 5, 6], rfl⟩) _ (by simp [IsRaw]) rfl 1 3 (by decide)

end Hadar.Props
