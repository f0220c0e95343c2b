import Verif.Proofs.Query

/-! # Partial queries kept by a user -/

namespace Hadar

open Spec

theorem chain_append {a : Analyzer} {q q' : Selector} {cs : List (IndexKind × IndexArg)}
    (h : q.chain a cs = .ok (.selector q')) (ds : List (IndexKind × IndexArg)) :
    q.chain a (cs ++ ds) = q'.chain a ds := by
  induction cs generalizing q with
  | nil => cases h; rfl
  | cons c cs ih =>
    obtain ⟨k, arg⟩ := c
    rw [Selector.chain] at h
    rw [List.cons_append, Selector.chain]
    cases hc : (Selector.call a k arg q).1 with
    | error e => rw [hc] at h; cases h
    | ok x =>
      rw [hc] at h
      cases x with
      | selector q1 => exact ih h
      | table t => simp only at h; split_ifs at h; cases h

theorem chain_single (a : Analyzer) (q : Selector) (k : IndexKind) (arg : IndexArg) :
    q.chain a [(k, arg)] = (Selector.call a k arg q).1 := by
  rw [Selector.chain]
  cases (Selector.call a k arg q).1 with
  | error e => rfl
  | ok x => cases x <;> simp [Selector.chain]

/-- a selector with this list, made by these calls -/
structure Fresh (a : Analyzer) (st : Selectors) (ps : List (IndexArg × List (IndexKind × IndexArg)))
    (i : ℕ) : Prop where
  same : ∀ l f, st.sels[i]? = some (l, f) → st.lists[l]? = some f ∧
    ∃ p, ps[i]? = some p ∧ a.ask p.1 p.2 = .ok (.selector ⟨f, f⟩)

structure SelInv (a : Analyzer) (ps : List (IndexArg × List (IndexKind × IndexArg)))
    (st : Selectors) (ops : List SelOp) : Prop where
  length : ps.length = st.sels.length
  refs : ∀ (i l : ℕ) f, st.sels[i]? = some (l, f) → l < st.lists.length
  inj : ∀ (i j l : ℕ) f g, st.sels[i]? = some (l, f) → st.sels[j]? = some (l, g) → i = j
  fresh : ∀ i, Untouched i ops → Fresh a st ps i

theorem Spec.Untouched.tail {i : ℕ} {op : SelOp} {ops : List SelOp} (h : Untouched i (op :: ops)) :
    Untouched i ops := fun k arg hm => h k arg (List.mem_cons_of_mem _ hm)

/-- a new selector with its own list -/
theorem SelInv.create {a : Analyzer} {ps : List (IndexArg × List (IndexKind × IndexArg))}
    {st : Selectors} {ops : List SelOp} (h : SelInv a ps st ops) {f : List Index}
    {p : IndexArg × List (IndexKind × IndexArg)} (hp : a.ask p.1 p.2 = .ok (.selector ⟨f, f⟩)) :
    SelInv a (ps ++ [p]) ⟨st.lists ++ [f], st.sels ++ [(st.lists.length, f)]⟩ ops := by
  have hnew : ∀ (i l : ℕ) g, (st.sels ++ [(st.lists.length, f)])[i]? = some (l, g) →
      st.sels[i]? = some (l, g) ∨ (i = st.sels.length ∧ l = st.lists.length ∧ g = f) := by
    intro i l g hi
    rw [List.getElem?_append] at hi
    split_ifs at hi with hlt
    · exact .inl hi
    · right
      rw [List.getElem?_singleton] at hi
      split_ifs at hi with h0
      cases hi
      exact ⟨by omega, rfl, rfl⟩
  refine ⟨by simp [h.length], ?_, ?_, ?_⟩
  · intro i l g hi
    rw [List.length_append, List.length_singleton]
    rcases hnew i l g hi with h0 | ⟨_, rfl, _⟩
    · have := h.refs i l g h0; omega
    · omega
  · intro i j l g g' hi hj
    rcases hnew i l g hi with h0 | ⟨e1, e2, _⟩ <;> rcases hnew j l g' hj with h1 | ⟨e3, e4, _⟩
    · exact h.inj i j l g g' h0 h1
    · have := h.refs i l g h0; omega
    · have := h.refs j l g' h1; omega
    · omega
  · intro i hu
    refine ⟨?_⟩
    intro l g hi
    rcases hnew i l g hi with h0 | ⟨rfl, rfl, rfl⟩
    · obtain ⟨e1, p', e2, e3⟩ := (h.fresh i hu).same l g h0
      refine ⟨?_, p', ?_, e3⟩
      · rw [List.getElem?_append_left (h.refs i l g h0)]; exact e1
      · rw [List.getElem?_append_left (List.getElem?_eq_some_iff.mp e2).1]; exact e2
    · refine ⟨by simp, p, ?_, hp⟩
      rw [← h.length]; simp

theorem SelInv.weaken {a : Analyzer} {ps : List (IndexArg × List (IndexKind × IndexArg))}
    {st : Selectors} {ops : List SelOp} (h : SelInv a ps st ops) (op : SelOp) :
    SelInv a ps st (op :: ops) :=
  ⟨h.length, h.refs, h.inj, fun i hu => h.fresh i hu.tail⟩

/-- the list of a selector that is called is changed, it is then no longer untouched -/
theorem SelInv.set {a : Analyzer} {ps : List (IndexArg × List (IndexKind × IndexArg))}
    {st : Selectors} {ops : List SelOp} (h : SelInv a ps st ops) {i l : ℕ} {f : List Index}
    (hi : st.sels[i]? = some (l, f)) (g : List Index) (k : IndexKind) (arg : IndexArg) :
    SelInv a ps { st with lists := st.lists.set l g } (.call i k arg :: ops) := by
  refine ⟨h.length, ?_, h.inj, ?_⟩
  · intro j m f' hj
    simpa using h.refs j m f' hj
  · intro j hu
    refine ⟨?_⟩
    intro m f' hj
    obtain ⟨e1, e2⟩ := (h.fresh j hu.tail).same m f' hj
    refine ⟨?_, e2⟩
    have hne : l ≠ m := by
      rintro rfl
      have := h.inj i j l f f' hi hj
      subst this
      exact hu k arg List.mem_cons_self
    simp only [List.getElem?_set_ne hne]
    exact e1

theorem ask_network {a : Analyzer} {arg : IndexArg} {x : Index} (h : Index.make .network arg = .ok x)
    (calls : List (IndexKind × IndexArg)) :
    a.ask arg calls = Selector.chain a ⟨[x], [x]⟩ calls := by
  unfold Analyzer.ask Analyzer.network
  rw [h]; rfl

theorem ask_selector {a : Analyzer} {g : IndexArg} {calls : List (IndexKind × IndexArg)} {q : Selector}
    (h : a.ask g calls = .ok (.selector q)) (ds : List (IndexKind × IndexArg)) :
    a.ask g (calls ++ ds) = q.chain a ds := by
  cases hx : Index.make .network g with
  | error e =>
    unfold Analyzer.ask Analyzer.network at h
    rw [hx] at h; cases h
  | ok x =>
    rw [ask_network hx] at h ⊢
    exact chain_append h ds

/-- reply of a selector that was not called before -/
theorem SelInv.reply {a : Analyzer} {ps : List (IndexArg × List (IndexKind × IndexArg))}
    {st : Selectors} {ops : List SelOp} (h : SelInv a ps st ops) {i : ℕ} (hi : i < st.sels.length)
    (hu : Untouched i ops) (k : IndexKind) (arg : IndexArg) :
    ∃ p, ps[i]? = some p ∧ SameReply (st.step a (.call i k arg)).1 (a.ask p.1 (p.2 ++ [(k, arg)])) := by
  obtain ⟨l, f, hlf⟩ : ∃ l f, st.sels[i]? = some (l, f) := ⟨_, _, List.getElem?_eq_getElem hi⟩
  obtain ⟨e1, p, e2, e3⟩ := (h.fresh i hu).same l f hlf
  refine ⟨p, e2, ?_⟩
  rw [ask_selector e3, chain_single]
  unfold Selector.call
  simp only [Selectors.step, hlf, List.getD_eq_getElem?_getD, e1, Option.getD_some]
  split_ifs
  · cases Index.make k arg with
    | error e => exact .error e
    | ok x =>
      simp only
      split_ifs
      · cases a.filter (f ++ [x]) with
        | error e => exact .error e
        | ok t => exact .table t
      · exact .selector _ _
  · exact .error _

theorem selInv (a : Analyzer) (ops : List SelOp) (hl : Linear ops) :
    SelInv a (paths a ops).1 (paths a ops).2 ops := by
  induction ops with
  | nil =>
    refine ⟨rfl, ?_, ?_, ?_⟩
    · intro i l f h; simp [paths, Selectors.start] at h
    · intro i j l f g h; simp [paths, Selectors.start] at h
    · intro i _
      exact ⟨by intro l f h; simp [paths, Selectors.start] at h⟩
  | cons op ops ih =>
    cases op with
    | network arg =>
      have h := ih hl
      rw [paths]
      generalize paths a ops = P at h
      obtain ⟨ps, st⟩ := P
      simp only [Selectors.step] at h ⊢
      cases hm : Index.make .network arg with
      | error e => exact h.weaken _
      | ok x =>
        simp only [Selectors.create]
        exact (h.create (p := (arg, [])) (ask_network hm [])).weaken _
    | call i k arg =>
      obtain ⟨hu, hl⟩ := hl
      have h := ih hl
      rw [paths]
      generalize paths a ops = P at h
      obtain ⟨ps, st⟩ := P
      simp only at h ⊢
      by_cases hi : i < st.sels.length
      · obtain ⟨p, hp, hrep⟩ := h.reply hi hu k arg
        obtain ⟨l, f, hlf⟩ : ∃ l f, st.sels[i]? = some (l, f) := ⟨_, _, List.getElem?_eq_getElem hi⟩
        obtain ⟨e1, p', e2, e3⟩ := (h.fresh i hu).same l f hlf
        cases hp.symm.trans e2
        have hask := ask_selector e3 [(k, arg)]
        rw [chain_single] at hask
        unfold Selector.call at hask
        simp only [Selectors.step, hlf, List.getD_eq_getElem?_getD, e1, Option.getD_some]
        split_ifs with ho
        · rw [if_pos ho] at hask
          cases hm : Index.make k arg with
          | error e => exact h.weaken _
          | ok x =>
            rw [hm] at hask
            simp only at hask ⊢
            split_ifs with h5
            · cases a.filter (f ++ [x]) with
              | error e => exact h.set hlf _ k arg
              | ok t => exact h.set hlf _ k arg
            · rw [if_neg h5] at hask
              simp only [Selectors.create, e2, Option.getD_some]
              exact (h.set hlf (f ++ [x]) k arg).create (p := (p.1, p.2 ++ [(k, arg)])) hask
        · exact h.weaken _
      · have : st.sels[i]? = none := List.getElem?_eq_none (by omega)
        simp only [Selectors.step, this]
        exact h.weaken _

/-! ### Selectors called again -/

/-- every selector has its own list -/
structure OwnLists (st : Selectors) : Prop where
  refs : ∀ (i l : ℕ) f, st.sels[i]? = some (l, f) → l < st.lists.length
  inj : ∀ (i j l : ℕ) f g, st.sels[i]? = some (l, f) → st.sels[j]? = some (l, g) → i = j

/-- number of indexes in the list of a selector -/
def Selectors.count (st : Selectors) (i : ℕ) : ℕ :=
  match st.sels[i]? with
  | some (l, _) => (st.lists.getD l []).length
  | none => 0

theorem OwnLists.create {st : Selectors} (h : OwnLists st) (f : List Index) : OwnLists (st.create f).2 := by
  have hnew : ∀ (i l : ℕ) g, (st.sels ++ [(st.lists.length, f)])[i]? = some (l, g) →
      st.sels[i]? = some (l, g) ∨ (i = st.sels.length ∧ l = st.lists.length ∧ g = f) := by
    intro i l g hi
    rw [List.getElem?_append] at hi
    split_ifs at hi with hlt
    · exact .inl hi
    · right
      rw [List.getElem?_singleton] at hi
      split_ifs at hi with h0
      cases hi
      exact ⟨by omega, rfl, rfl⟩
  simp only [Selectors.create]
  refine ⟨?_, ?_⟩
  · intro i l g hi
    rw [List.length_append, List.length_singleton]
    rcases hnew i l g hi with h0 | ⟨_, rfl, _⟩
    · have := h.refs i l g h0; omega
    · omega
  · intro i j l g g' hi hj
    rcases hnew i l g hi with h0 | ⟨e1, e2, _⟩ <;> rcases hnew j l g' hj with h1 | ⟨e3, e4, _⟩
    · exact h.inj i j l g g' h0 h1
    · have := h.refs i l g h0; omega
    · have := h.refs j l g' h1; omega
    · omega

theorem OwnLists.set {st : Selectors} (h : OwnLists st) (l : ℕ) (f : List Index) :
    OwnLists { st with lists := st.lists.set l f } :=
  ⟨fun i m g hi => by simpa using h.refs i m g hi, h.inj⟩

theorem OwnLists.step {st : Selectors} (h : OwnLists st) (a : Analyzer) (op : SelOp) : OwnLists (st.step a op).2 := by
  cases op with
  | network arg =>
    simp only [Selectors.step]
    cases Index.make .network arg with
    | error e => exact h
    | ok x => exact h.create _
  | call i k arg =>
    simp only [Selectors.step]
    cases hi : st.sels[i]? with
    | none => exact h
    | some p =>
      obtain ⟨l, f⟩ := p
      simp only
      split_ifs
      · cases Index.make k arg with
        | error e => exact h
        | ok x =>
          simp only
          split_ifs
          · exact h.set _ _
          · exact (h.set _ _).create _
      · exact h

theorem count_create {st : Selectors} (h : OwnLists st) (f : List Index) {i : ℕ} (hi : i < st.sels.length) :
    (st.create f).2.count i = st.count i := by
  have e : (st.create f).2.sels[i]? = st.sels[i]? := List.getElem?_append_left hi
  unfold Selectors.count
  rw [e]
  cases hl : st.sels[i]? with
  | none => rfl
  | some p =>
    have := h.refs i p.1 p.2 hl
    simp only [Selectors.create, List.getD_eq_getElem?_getD]
    rw [List.getElem?_append_left this]

theorem count_set {st : Selectors} (h : OwnLists st) {i : ℕ} {l : ℕ} {f0 : List Index} (hi : st.sels[i]? = some (l, f0))
    (f : List Index) (hf : (st.lists.getD l []).length ≤ f.length) (j : ℕ) :
    st.count j ≤ ({ st with lists := st.lists.set l f } : Selectors).count j ∧
      ({ st with lists := st.lists.set l f } : Selectors).count i = f.length := by
  constructor
  · unfold Selectors.count
    simp only
    cases hj : st.sels[j]? with
    | none => exact le_refl _
    | some p =>
      obtain ⟨m, g⟩ := p
      have hm := h.refs j m g hj
      simp only
      by_cases e : l = m
      · subst e
        have : (st.lists.set l f).getD l [] = f := by simp [List.getD_eq_getElem?_getD, hm]
        rw [this]
        exact hf
      · have : (st.lists.set l f).getD m [] = st.lists.getD m [] := by
          simp [List.getD_eq_getElem?_getD, List.getElem?_set_ne e]
        rw [this]
  · unfold Selectors.count
    simp only [hi]
    have hm := h.refs i l f0 hi
    simp [List.getD_eq_getElem?_getD, hm]

theorem lt_of_sel {st : Selectors} {i : ℕ} {p : ℕ × List Index} (h : st.sels[i]? = some p) : i < st.sels.length :=
  (List.getElem?_eq_some_iff.mp h).1

/-- lists never get shorter -/
theorem count_step {st : Selectors} (h : OwnLists st) (a : Analyzer) (op : SelOp) (j : ℕ) :
    j < st.sels.length → st.count j ≤ (st.step a op).2.count j ∧ j < (st.step a op).2.sels.length := by
  intro hj
  cases op with
  | network arg =>
    simp only [Selectors.step]
    cases Index.make .network arg with
    | error e => exact ⟨le_refl _, hj⟩
    | ok x =>
      simp only
      rw [count_create h _ hj]
      exact ⟨le_refl _, by simp [Selectors.create]; omega⟩
  | call i k arg =>
    simp only [Selectors.step]
    cases hi : st.sels[i]? with
    | none => exact ⟨le_refl _, hj⟩
    | some p =>
      obtain ⟨l, f⟩ := p
      simp only
      split_ifs
      · cases Index.make k arg with
        | error e => exact ⟨le_refl _, hj⟩
        | ok x =>
          have hc := count_set h hi (st.lists.getD l [] ++ [x]) (by simp) j
          simp only
          split_ifs
          · exact ⟨hc.1, hj⟩
          · rw [count_create (h.set _ _) _ hj]
            exact ⟨hc.1, by simp [Selectors.create]; omega⟩
      · exact ⟨le_refl _, hj⟩

/-- a table comes when the list reaches five indexes -/
theorem table_count {st : Selectors} (h : OwnLists st) {a : Analyzer} {i : ℕ} {k : IndexKind} {arg : IndexArg} {t : Option Pivot}
    (ht : (st.step a (.call i k arg)).1 = .ok (.table t)) :
    i < st.sels.length ∧ st.count i < fullDescription ∧ (st.step a (.call i k arg)).2.count i = fullDescription := by
  simp only [Selectors.step] at ht ⊢
  cases hi : st.sels[i]? with
  | none => rw [hi] at ht; cases ht
  | some p =>
    obtain ⟨l, f⟩ := p
    rw [hi] at ht
    simp only at ht ⊢
    split_ifs at ht ⊢ with ho
    · cases hm : Index.make k arg with
      | error e => rw [hm] at ht; cases ht
      | ok x =>
        rw [hm] at ht
        simp only at ht ⊢
        have hc := count_set h hi (st.lists.getD l [] ++ [x]) (by simp) i
        have e0 : st.count i = (st.lists.getD l []).length := by simp only [Selectors.count, hi]
        split_ifs at ht ⊢ with h5
        · refine ⟨lt_of_sel hi, ?_, ?_⟩
          · rw [e0]
            rw [List.length_append, List.length_singleton] at h5
            omega
          · rw [hc.2, h5]
        · cases ht

theorem ownLists_start : OwnLists Selectors.start :=
  ⟨fun i l f h => by simp [Selectors.start] at h, fun i j l f g h => by simp [Selectors.start] at h⟩

end Hadar
