import Verif.Proofs.Base
import Verif.Spec.Numeric
import Mathlib.Tactic.Ring
import Mathlib.Tactic.FieldSimp

/-! # Lemmas on numerical values -/

namespace Hadar

theorem NdArray.axisIndex_nat (m k : ℕ) :
    NdArray.axisIndex m (k : ℤ) = if k < m then .ok k else .error .indexError := by
  unfold NdArray.axisIndex
  simp

/-- the shapes `create` gives -/
def NumVal.Sized (h n : ℕ) (v : NumVal) : Prop :=
  v.horizon = h ∧ v.nbScn = n ∧
    match v.kind with
    | .scalar _ => True
    | .row a => a.shape = [h]
    | .column a => a.shape = [n, 1]
    | .matrix a => a.shape = [n, h]

/-- direct reading of a sized value -/
def NumVal.at? (v : NumVal) (h : ℕ) (s t : ℕ) : Option ℚ :=
  match v.kind with
  | .scalar q => some q
  | .row a => a.data[t]?
  | .column a => a.data[s]?
  | .matrix a => a.data[s * h + t]?

theorem NdArray.length1 {a : NdArray} {h : ℕ} (hs : a.shape = [h]) : a.data.length = h := by
  have := a.wf; rw [hs] at this; simpa using this

theorem NdArray.length2 {a : NdArray} {n h : ℕ} (hs : a.shape = [n, h]) :
    a.data.length = n * h := by
  have := a.wf; rw [hs] at this; simpa using this

theorem idx_lt {n h s t : ℕ} (hs : s < n) (ht : t < h) : s * h + t < n * h := by
  have : (s + 1) * h ≤ n * h := Nat.mul_le_mul_right h hs
  have e : (s + 1) * h = s * h + h := by ring
  omega

theorem NumVal.Sized.at?_some {v : NumVal} {h n : ℕ} (hv : v.Sized h n) {s t : ℕ} (hs : s < n)
    (ht : t < h) : ∃ q, v.at? h s t = some q := by
  obtain ⟨_, _, hk⟩ := hv
  unfold NumVal.at?
  cases hkind : v.kind with
  | scalar q => exact ⟨q, rfl⟩
  | row a =>
    rw [hkind] at hk
    exact ⟨_, List.getElem?_eq_getElem (by rw [NdArray.length1 hk]; exact ht)⟩
  | column a =>
    rw [hkind] at hk
    exact ⟨_, List.getElem?_eq_getElem (by rw [NdArray.length2 hk]; omega)⟩
  | matrix a =>
    rw [hkind] at hk
    exact ⟨_, List.getElem?_eq_getElem (by rw [NdArray.length2 hk]; exact idx_lt hs ht)⟩

theorem NumVal.Sized.getitem {v : NumVal} {h n : ℕ} (hv : v.Sized h n) {s t : ℕ} (hs : s < n)
    (ht : t < h) {q : ℚ} (hq : v.at? h s t = some q) : v.getitem s t = .ok q := by
  obtain ⟨rfl, rfl, hk⟩ := hv
  unfold NumVal.getitem
  unfold NumVal.at? at hq
  cases hkind : v.kind with
  | scalar q' => rw [hkind] at hq; simp at hq; simp [not_le.mpr hs, not_le.mpr ht, hq]
  | row a =>
    rw [hkind] at hq hk
    simp only at hq hk
    simp [not_le.mpr hs, NdArray.get1, hk, NdArray.axisIndex_nat, ht, hq, bind, Except.bind]
  | column a =>
    rw [hkind] at hq hk
    simp only at hq hk
    have h0 : NdArray.axisIndex 1 0 = .ok 0 := rfl
    simp [hs, not_le.mpr ht, NdArray.get2, hk, NdArray.axisIndex_nat, hq, bind, Except.bind, h0]
  | matrix a =>
    rw [hkind] at hq hk
    simp only at hq hk
    simp [hs, NdArray.get2, hk, NdArray.axisIndex_nat, ht, hq, bind, Except.bind]

theorem NdArray.axisIndex_neg {m k : ℕ} (h : k < m) : NdArray.axisIndex m ((k : ℤ) - m) = .ok k := by
  have h1 : ¬ (0 : ℤ) ≤ (k : ℤ) - m := by omega
  have h2 : -(m : ℤ) ≤ (k : ℤ) - m := by omega
  have h3 : ((k : ℤ) - m + m).toNat = k := by omega
  unfold NdArray.axisIndex
  rw [if_neg h1, if_pos h2, h3]

/-- counting from the end, along either axis -/
theorem NumVal.Sized.getitem_neg {v : NumVal} {h n : ℕ} (hv : v.Sized h n) {s t : ℕ} (hs : s < n)
    (ht : t < h) {i j : ℤ} (hi : i = s ∨ i = (s : ℤ) - n) (hj : j = t ∨ j = (t : ℤ) - h) {q : ℚ}
    (hq : v.at? h s t = some q) : v.getitem i j = .ok q := by
  obtain ⟨rfl, rfl, hk⟩ := hv
  have ei : NdArray.axisIndex v.nbScn i = .ok s := by
    rcases hi with rfl | rfl
    · rw [NdArray.axisIndex_nat, if_pos hs]
    · exact NdArray.axisIndex_neg hs
  have ej : NdArray.axisIndex v.horizon j = .ok t := by
    rcases hj with rfl | rfl
    · rw [NdArray.axisIndex_nat, if_pos ht]
    · exact NdArray.axisIndex_neg ht
  have li : ¬ i ≥ v.nbScn := by omega
  have lj : ¬ j ≥ v.horizon := by omega
  unfold NumVal.getitem
  unfold NumVal.at? at hq
  cases hkind : v.kind with
  | scalar q' =>
    rw [hkind] at hq
    simp only at hq ⊢
    rw [if_neg li, if_neg lj]
    cases hq; rfl
  | row a =>
    rw [hkind] at hq hk
    simp only at hq hk ⊢
    rw [if_neg li]
    simp [NdArray.get1, hk, ej, hq, bind, Except.bind]
  | column a =>
    rw [hkind] at hq hk
    simp only at hq hk ⊢
    rw [if_neg lj]
    have h0 : NdArray.axisIndex 1 0 = .ok 0 := rfl
    simp [NdArray.get2, hk, ei, hq, bind, Except.bind, h0]
  | matrix a =>
    rw [hkind] at hq hk
    simp only at hq hk ⊢
    simp [NdArray.get2, hk, ei, ej, hq, bind, Except.bind]

theorem NumVal.Sized.getitem_out {v : NumVal} {h n : ℕ} (hv : v.Sized h n) {s t : ℕ}
    (ho : n ≤ s ∨ h ≤ t) : v.getitem s t = .error .indexError := by
  obtain ⟨rfl, rfl, hk⟩ := hv
  unfold NumVal.getitem
  cases hkind : v.kind with
  | scalar q' =>
    by_cases hs : v.nbScn ≤ s
    · simp [hs]
    · have ht : v.horizon ≤ t := by omega
      simp [hs, ht]
  | row a =>
    rw [hkind] at hk
    simp only at hk
    by_cases hs : v.nbScn ≤ s
    · simp [hs]
    · have ht : ¬ t < v.horizon := by omega
      simp [hs, NdArray.get1, hk, NdArray.axisIndex_nat, ht, bind, Except.bind]
  | column a =>
    rw [hkind] at hk
    simp only at hk
    by_cases ht : v.horizon ≤ t
    · simp [ht]
    · have hs : ¬ s < v.nbScn := by omega
      simp [ht, NdArray.get2, hk, NdArray.axisIndex_nat, hs, bind, Except.bind]
  | matrix a =>
    rw [hkind] at hk
    simp only at hk
    by_cases hs : s < v.nbScn
    · have ht : ¬ t < v.horizon := by omega
      simp [NdArray.get2, hk, NdArray.axisIndex_nat, hs, ht, bind, Except.bind]
    · simp [NdArray.get2, hk, NdArray.axisIndex_nat, hs, bind, Except.bind]

theorem length_tile (l : List ℚ) (n : ℕ) : (NumVal.tile l n).length = n * l.length := by
  induction n with
  | zero => simp [NumVal.tile]
  | succ n ih =>
    simp only [NumVal.tile, List.replicate_succ, List.flatten_cons, List.length_append] at ih ⊢
    rw [ih]; ring

theorem getElem?_tile (l : List ℚ) (n s t : ℕ) (hs : s < n) (ht : t < l.length) :
    (NumVal.tile l n)[s * l.length + t]? = l[t]? := by
  induction n generalizing s with
  | zero => omega
  | succ n ih =>
    simp only [NumVal.tile, List.replicate_succ, List.flatten_cons] at ih ⊢
    cases s with
    | zero => simp [List.getElem?_append_left ht]
    | succ s =>
      have e : (s + 1) * l.length + t = l.length + (s * l.length + t) := by ring
      rw [e, List.getElem?_append_right (by omega)]
      simpa using ih s (by omega)

theorem length_repeatEach (l : List ℚ) (h : ℕ) : (NumVal.repeatEach l h).length = l.length * h := by
  induction l with
  | nil => simp [NumVal.repeatEach]
  | cons a l ih =>
    simp only [NumVal.repeatEach, List.flatMap_cons, List.length_append, List.length_replicate,
      List.length_cons] at ih ⊢
    rw [ih]; ring

theorem getElem?_repeatEach (l : List ℚ) (h s t : ℕ) (hs : s < l.length) (ht : t < h) :
    (NumVal.repeatEach l h)[s * h + t]? = l[s]? := by
  induction l generalizing s with
  | nil => simp at hs
  | cons a l ih =>
    simp only [NumVal.repeatEach, List.flatMap_cons] at ih ⊢
    cases s with
    | zero => simp [List.getElem?_append_left, ht]
    | succ s =>
      have e : (s + 1) * h + t = h + (s * h + t) := by ring
      rw [e, List.getElem?_append_right (by simp)]
      simp only [List.length_replicate, Nat.add_sub_cancel_left, List.getElem?_cons_succ]
      exact ih s (by simpa using hs)

theorem NumVal.Sized.flatten_length {v : NumVal} {h n : ℕ} (hv : v.Sized h n) :
    v.flatten.length = n * h := by
  obtain ⟨rfl, rfl, hk⟩ := hv
  unfold NumVal.flatten
  cases hkind : v.kind with
  | scalar q => simp; ring
  | row a => rw [hkind] at hk; simp only at hk ⊢; rw [length_tile, NdArray.length1 hk]
  | column a => rw [hkind] at hk; simp only at hk ⊢; rw [length_repeatEach, NdArray.length2 hk]; ring
  | matrix a => rw [hkind] at hk; simp only at hk ⊢; rw [NdArray.length2 hk]

theorem NumVal.Sized.flatten_get {v : NumVal} {h n : ℕ} (hv : v.Sized h n) {s t : ℕ} (hs : s < n)
    (ht : t < h) : v.flatten[s * h + t]? = v.at? h s t := by
  obtain ⟨rfl, rfl, hk⟩ := hv
  unfold NumVal.flatten NumVal.at?
  cases hkind : v.kind with
  | scalar q =>
    have := idx_lt hs ht
    simp only [List.map_replicate, one_mul]
    rw [List.getElem?_replicate, if_pos (by rw [Nat.mul_comm v.horizon]; exact this)]
  | row a =>
    rw [hkind] at hk; simp only at hk ⊢
    have hl := NdArray.length1 hk
    rw [← hl] at ht ⊢
    exact getElem?_tile _ _ _ _ hs ht
  | column a =>
    rw [hkind] at hk; simp only at hk ⊢
    have hl := NdArray.length2 hk
    exact getElem?_repeatEach _ _ _ _ (by omega) ht
  | matrix a => rfl

theorem Factory.ofArray_sized {f : Factory} {a : NdArray} {v : NumVal} (h : f.ofArray a = .ok v) :
    v.Sized f.horizon f.nbScn := by
  unfold Factory.ofArray at h
  split_ifs at h with h1 h2 h3 <;> cases h <;> exact ⟨rfl, rfl, by assumption⟩

theorem Factory.ofJson_sized {f : Factory} {j : Json} {v : NumVal} (h : f.ofJson j = .ok v) :
    v.Sized f.horizon f.nbScn := by
  unfold Factory.ofJson at h
  split at h
  · cases h; exact ⟨rfl, rfl, trivial⟩
  · simp only [bind, Except.bind] at h
    split at h
    · cases h
    · exact Factory.ofArray_sized h
  · cases h

theorem Factory.create_sized {f : Factory} {r : Raw} {v : NumVal} (hr : ∀ w, r ≠ .val w)
    (h : f.create r = .ok v) : v.Sized f.horizon f.nbScn := by
  unfold Factory.create at h
  split at h
  · exact absurd rfl (hr _)
  · cases h; exact ⟨rfl, rfl, trivial⟩
  · exact Factory.ofArray_sized h
  · split at h
    · exact Factory.ofJson_sized h
    · cases h
  · exact Factory.ofJson_sized h
  · cases h

/-! ### nested lists -/

theorem Json.stackRows_shape {rows : List (List ℕ × List ℚ)} {sh : List ℕ} {d : List ℚ}
    (h : Json.stackRows rows = some (sh, d)) : sh ≠ [] := by
  cases rows with
  | nil => simp [Json.stackRows] at h; simp [← h.1]
  | cons r rs =>
    simp only [Json.stackRows] at h
    split_ifs at h
    simp only [Option.some.injEq, Prod.mk.injEq] at h
    simp [← h.1]

theorem Json.nd?_zero {j : Json} {d : List ℚ} (h : Json.nd? j = some ([], d)) :
    ∃ q, j = .num q ∧ d = [q] := by
  cases j with
  | num q => simp [Json.nd?] at h; exact ⟨q, rfl, h.symm⟩
  | arr l =>
    simp only [Json.nd?] at h
    split at h
    · exact absurd rfl (Json.stackRows_shape h)
    · cases h
  | _ => simp [Json.nd?] at h

theorem Json.ndAll?_forall {l : List Json} {rows : List (List ℕ × List ℚ)}
    (h : Json.ndAll? l = some rows) : List.Forall₂ (fun j r => Json.nd? j = some r) l rows := by
  induction l generalizing rows with
  | nil => simp [Json.ndAll?] at h; subst h; exact .nil
  | cons x xs ih =>
    simp only [Json.ndAll?] at h
    split at h
    · rename_i r rs h1 h2
      cases h
      exact .cons h1 (ih h2)
    · cases h

theorem Json.ndAll?_map {α : Type} {l : List α} {f : α → Json} {g : α → List ℕ × List ℚ}
    (h : ∀ a ∈ l, Json.nd? (f a) = some (g a)) : Json.ndAll? (l.map f) = some (l.map g) := by
  induction l with
  | nil => simp [Json.ndAll?]
  | cons a l ih =>
    have h1 := h a (by simp)
    have h2 := ih (fun x hx => h x (List.mem_cons_of_mem _ hx))
    simp [Json.ndAll?, h1, h2]

theorem Json.stackRows_of {rows : List (List ℕ × List ℚ)} {sh : List ℕ} (hne : rows ≠ [])
    (h : ∀ r ∈ rows, r.1 = sh) :
    Json.stackRows rows = some (rows.length :: sh, (rows.map Prod.snd).flatten) := by
  cases rows with
  | nil => exact absurd rfl hne
  | cons r rs =>
    have hr := h r (by simp)
    have : rs.all (fun r' => decide (r'.1 = r.1)) = true := by
      simp only [List.all_eq_true, decide_eq_true_eq]
      intro x hx
      rw [hr]; exact h x (List.mem_cons_of_mem _ hx)
    rw [Json.stackRows, if_pos this, hr]; rfl

theorem Json.stackRows_some {rows : List (List ℕ × List ℚ)} {m : ℕ} {sh : List ℕ} {d : List ℚ}
    (hne : rows ≠ []) (h : Json.stackRows rows = some (m :: sh, d)) :
    m = rows.length ∧ d = (rows.map Prod.snd).flatten ∧ ∀ r ∈ rows, r.1 = sh := by
  cases rows with
  | nil => exact absurd rfl hne
  | cons r rs =>
    simp only [Json.stackRows] at h
    split_ifs at h with hc
    simp only [Option.some.injEq, Prod.mk.injEq, List.cons.injEq] at h
    obtain ⟨⟨rfl, rfl⟩, rfl⟩ := h
    refine ⟨rfl, rfl, ?_⟩
    intro x hx
    rcases List.mem_cons.mp hx with rfl | hx
    · rfl
    · simpa using (List.all_eq_true.mp hc) x hx

theorem Json.nums_of_forall {l : List Json} {rows : List (List ℕ × List ℚ)}
    (hf : List.Forall₂ (fun j r => Json.nd? j = some r) l rows) (hs : ∀ r ∈ rows, r.1 = []) :
    l = ((rows.map Prod.snd).flatten).map .num ∧
      ((rows.map Prod.snd).flatten).length = rows.length := by
  induction hf with
  | nil => simp
  | @cons x r xs rs hx _ ih =>
    obtain ⟨sh, d⟩ := r
    have h0 : sh = [] := hs (sh, d) (by simp)
    subst h0
    obtain ⟨q, rfl, rfl⟩ := Json.nd?_zero hx
    obtain ⟨e, el⟩ := ih (fun r hr => hs r (List.mem_cons_of_mem _ hr))
    constructor
    · simp [← e]
    · simpa using el

theorem Json.nd?_one {j : Json} {m : ℕ} {d : List ℚ} (h : Json.nd? j = some ([m], d)) :
    j = Spec.jrow d ∧ d.length = m := by
  cases j with
  | arr l =>
    simp only [Json.nd?] at h
    split at h
    · rename_i rows hrows
      have hf := Json.ndAll?_forall hrows
      by_cases hne : rows = []
      · subst hne
        cases hf
        simp [Json.stackRows] at h
        simp [Spec.jrow, ← h.1, ← h.2]
      · obtain ⟨rfl, rfl, hs⟩ := Json.stackRows_some hne h
        obtain ⟨e, el⟩ := Json.nums_of_forall hf hs
        exact ⟨by rw [Spec.jrow, e], el⟩
    · cases h
  | num q => simp [Json.nd?] at h
  | _ => simp [Json.nd?] at h

theorem Json.jrows_of_forall {l : List Json} {rows : List (List ℕ × List ℚ)} {k : ℕ}
    (hf : List.Forall₂ (fun j r => Json.nd? j = some r) l rows) (hs : ∀ r ∈ rows, r.1 = [k]) :
    l = (rows.map Prod.snd).map Spec.jrow ∧ ∀ r ∈ rows.map Prod.snd, r.length = k := by
  induction hf with
  | nil => simp
  | @cons x r xs rs hx _ ih =>
    obtain ⟨sh, d⟩ := r
    have h0 : sh = [k] := hs (sh, d) (by simp)
    subst h0
    obtain ⟨rfl, hl⟩ := Json.nd?_one hx
    obtain ⟨e, el⟩ := ih (fun r hr => hs r (List.mem_cons_of_mem _ hr))
    refine ⟨by simp [← e], ?_⟩
    intro r hr
    simp only [List.map_cons, List.mem_cons] at hr
    rcases hr with rfl | hr
    · exact hl
    · exact el r hr

theorem Json.nd?_two {j : Json} {m k : ℕ} {d : List ℚ} (h : Json.nd? j = some ([m, k], d)) :
    ∃ rows : List (List ℚ), j = Spec.jrows rows ∧ d = rows.flatten ∧ rows.length = m ∧
      (∀ r ∈ rows, r.length = k) ∧ rows ≠ [] := by
  cases j with
  | arr l =>
    simp only [Json.nd?] at h
    split at h
    · rename_i rows hrows
      have hf := Json.ndAll?_forall hrows
      by_cases hne : rows = []
      · subst hne; simp [Json.stackRows] at h
      · obtain ⟨rfl, rfl, hs⟩ := Json.stackRows_some hne h
        obtain ⟨e, el⟩ := Json.jrows_of_forall hf hs
        exact ⟨rows.map Prod.snd, by rw [Spec.jrows, e], rfl, by simp, el, by simpa using hne⟩
    · cases h
  | num q => simp [Json.nd?] at h
  | _ => simp [Json.nd?] at h

theorem Json.nd?_jrow (d : List ℚ) : Json.nd? (Spec.jrow d) = some ([d.length], d) := by
  simp only [Spec.jrow, Json.nd?]
  rw [Json.ndAll?_map (g := fun q => ([], [q])) (fun q _ => by simp [Json.nd?])]
  cases d with
  | nil => simp [Json.stackRows]
  | cons q d =>
    simp only
    rw [Json.stackRows_of (sh := []) (by simp) (by simp)]
    have : ∀ l : List ℚ, (l.map (fun q => [q])).flatten = l := by
      intro l; induction l with
      | nil => rfl
      | cons a l ih => simp [ih]
    simp only [List.map_map, List.length_map]
    congr 2
    exact this (q :: d)

theorem Json.nd?_jrows {rows : List (List ℚ)} {k : ℕ} (hne : rows ≠ [])
    (hl : ∀ r ∈ rows, r.length = k) :
    Json.nd? (Spec.jrows rows) = some ([rows.length, k], rows.flatten) := by
  simp only [Spec.jrows, Json.nd?]
  rw [Json.ndAll?_map (g := fun r => ([r.length], r)) (fun r _ => Json.nd?_jrow r)]
  simp only
  rw [Json.stackRows_of (sh := [k]) (by simpa using hne)]
  · simp [Function.comp_def]
  · intro r hr
    obtain ⟨x, hx, rfl⟩ := List.mem_map.mp hr
    simp [hl x hx]

theorem Json.toNd_ok {j : Json} {a : NdArray} (h : Json.toNd j = .ok a) :
    Json.nd? j = some (a.shape, a.data) := by
  unfold Json.toNd at h
  split at h
  · rename_i sh d heq
    split_ifs at h with hl
    cases h
    exact heq
  · cases h

theorem length_flatten_const {rows : List (List ℚ)} {k : ℕ} (hl : ∀ r ∈ rows, r.length = k) :
    rows.flatten.length = rows.length * k := by
  induction rows with
  | nil => simp
  | cons r rows ih =>
    have h1 := hl r (by simp)
    have h2 := ih (fun x hx => hl x (List.mem_cons_of_mem _ hx))
    simp only [List.flatten_cons, List.length_append, List.length_cons, h1, h2]; ring

theorem getElem?_flatten_const {α : Type} {rows : List (List α)} {k : ℕ} (hl : ∀ r ∈ rows, r.length = k)
    (s t : ℕ) (ht : t < k) :
    rows.flatten[s * k + t]? = (rows[s]?).bind (fun r => r[t]?) := by
  induction rows generalizing s with
  | nil => simp
  | cons r rows ih =>
    have h1 := hl r (by simp)
    have h2 := ih (fun x hx => hl x (List.mem_cons_of_mem _ hx))
    cases s with
    | zero => simp [List.getElem?_append_left, h1, ht]
    | succ s =>
      have e : (s + 1) * k + t = r.length + (s * k + t) := by rw [h1]; ring
      rw [List.flatten_cons, e, List.getElem?_append_right (by omega)]
      simpa using h2 s

end Hadar
