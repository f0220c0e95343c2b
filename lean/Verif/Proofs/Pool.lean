import Verif.Model.Pool
import Verif.Proofs.LPBuild

/-!
# The order in which chunks finish does not matter
-/

namespace Hadar.Pool

theorem mapM_error_mem {α β : Type} {f : α → Except PyErr β} {l : List α} {e : PyErr}
    (h : l.mapM f = .error e) : ∃ x ∈ l, f x = .error e := by
  induction l with
  | nil => simp [pure, Except.pure] at h
  | cons a l ih =>
    rw [List.mapM_cons] at h
    cases ha : f a with
    | error e' =>
      rw [ha] at h
      simp only [bind, Except.bind] at h
      cases h
      exact ⟨a, by simp, ha⟩
    | ok b =>
      rw [ha] at h
      simp only [bind, Except.bind] at h
      cases hl : l.mapM f with
      | error e' =>
        rw [hl] at h
        cases h
        obtain ⟨x, hx, he⟩ := ih hl
        exact ⟨x, by simp [hx], he⟩
      | ok l' => rw [hl] at h; cases h

theorem mapM_error_of {α β : Type} {f : α → Except PyErr β} {l : List α} {x : α} (hx : x ∈ l)
    {e : PyErr} (h : f x = .error e) : ∃ e', l.mapM f = .error e' := by
  induction l with
  | nil => simp at hx
  | cons a l ih =>
    rw [List.mapM_cons]
    cases ha : f a with
    | error e' => exact ⟨e', rfl⟩
    | ok b =>
      rcases List.mem_cons.mp hx with rfl | hx
      · rw [ha] at h; cases h
      · obtain ⟨e', h'⟩ := ih hx
        refine ⟨e', ?_⟩
        rw [h']; rfl

theorem mapM_ok_inv {α β : Type} {f : α → Except PyErr β} {l : List α} {l' : List β}
    (h : l.mapM f = .ok l') : ∀ x ∈ l, ∃ y, f x = .ok y := by
  intro x hx
  cases hf : f x with
  | ok y => exact ⟨y, rfl⟩
  | error e =>
    obtain ⟨e', h'⟩ := mapM_error_of hx hf
    rw [h'] at h; cases h

theorem div_lt_nbChunks {size n m : ℕ} (hs : 0 < size) (hm : m < n) : m / size < nbChunks size n := by
  unfold nbChunks
  rw [Nat.div_lt_iff_lt_mul hs]
  have := Nat.div_add_mod (n + size - 1) size
  have h2 := Nat.mod_lt (n + size - 1) hs
  rw [Nat.mul_comm] at this
  omega

theorem mem_chunk {α : Type} {size : ℕ} (hs : 0 < size) {items : List α} {m : ℕ}
    (hm : m < items.length) : items[m] ∈ chunk size items (m / size) := by
  unfold chunk
  have h1 := Nat.div_add_mod m size
  have h2 := Nat.mod_lt m hs
  have h3 : m / size * size + m % size = m := by rw [Nat.mul_comm]; exact h1
  rw [List.mem_iff_getElem?]
  refine ⟨m % size, ?_⟩
  rw [List.getElem?_take, if_pos h2, List.getElem?_drop]
  rw [h3]
  exact List.getElem?_eq_getElem hm

theorem chunk_subset {α : Type} {size : ℕ} {items : List α} {i : ℕ} {x : α}
    (h : x ∈ chunk size items i) : x ∈ items :=
  List.mem_of_mem_drop (List.mem_of_mem_take h)

/-- slots filled for the chunks of `S` -/
def filled {α β : Type} (g : α → β) (size : ℕ) (items : List α) (S : List ℕ) : List (Option β) :=
  items.zipIdx.map fun p => if p.2 / size ∈ S then some (g p.1) else none

theorem filled_get {α β : Type} (g : α → β) (size : ℕ) (items : List α) (S : List ℕ) (m : ℕ) :
    (filled g size items S)[m]? =
      items[m]?.map fun a => if m / size ∈ S then some (g a) else none := by
  unfold filled
  rw [List.getElem?_map, List.getElem?_zipIdx]
  cases items[m]? <;> simp

theorem div_eq_iff_range {m size i : ℕ} (hs : 0 < size) :
    m / size = i ↔ i * size ≤ m ∧ m < (i + 1) * size := by
  rw [Nat.div_eq_iff hs]
  constructor
  · rintro ⟨h1, h2⟩
    constructor
    · omega
    · rw [Nat.add_mul]; omega
  · rintro ⟨h1, h2⟩
    rw [Nat.add_mul] at h2
    omega

theorem filled_step {α β : Type} (g : α → β) {size : ℕ} (hs : 0 < size) (items : List α)
    (S : List ℕ) {i : ℕ} (hi : i < nbChunks size items.length) :
    (filled g size items S).take (i * size) ++ ((chunk size items i).map g).map some ++
      (filled g size items S).drop ((i + 1) * size) = filled g size items (S ++ [i]) := by
  have hle : i * size < items.length := by
    unfold nbChunks at hi
    have hi := (Nat.le_div_iff_mul_le hs).mp hi
    rw [Nat.succ_mul] at hi
    omega
  have hlen : (filled g size items S).length = items.length := by simp [filled]
  have hmul : (i + 1) * size = i * size + size := by ring
  apply List.ext_getElem?
  intro m
  have hd := div_eq_iff_range (m := m) (i := i) hs
  rw [filled_get]
  have htl : ((filled g size items S).take (i * size)).length = i * size := by
    rw [List.length_take, hlen]; omega
  have hcl : (((chunk size items i).map g).map some).length =
      min size (items.length - i * size) := by
    simp [chunk]
  rw [List.append_assoc]
  by_cases h1 : m < i * size
  · rw [List.getElem?_append_left (by rw [htl]; exact h1), List.getElem?_take, if_pos h1, filled_get]
    have : m / size ≠ i := by
      intro e; have := (hd.mp e).1; omega
    simp [this]
  · rw [List.getElem?_append_right (by rw [htl]; omega), htl]
    by_cases h2 : m < (i + 1) * size
    · have e : m / size = i := hd.mpr ⟨by omega, h2⟩
      by_cases h3 : m < items.length
      · rw [List.getElem?_append_left (by rw [hcl]; omega)]
        simp only [chunk, List.getElem?_map, List.getElem?_take, List.getElem?_drop]
        rw [if_pos (by omega), show i * size + (m - i * size) = m by omega,
          List.getElem?_eq_getElem h3]
        simp [e]
      · rw [List.getElem?_eq_none (by
          rw [List.length_append, hcl, List.length_drop, hlen]; omega),
          List.getElem?_eq_none (by omega)]
        rfl
    · have : m / size ≠ i := by
        intro e; have := (hd.mp e).2; omega
      by_cases h3 : m < items.length
      · rw [List.getElem?_append_right (by rw [hcl]; omega), hcl, List.getElem?_drop,
          show (i + 1) * size + (m - i * size - min size (items.length - i * size)) = m by omega,
          filled_get]
        simp [this]
      · rw [List.getElem?_eq_none (by
          rw [List.length_append, hcl, List.length_drop, hlen]; omega),
          List.getElem?_eq_none (by omega)]
        rfl

theorem fold_ok {α β : Type} {f : α → Except PyErr β} (g : α → β) {size : ℕ} (hs : 0 < size)
    {items : List α} (hf : ∀ x ∈ items, f x = .ok (g x)) (order : List ℕ)
    (ho : ∀ i ∈ order, i < nbChunks size items.length) (S : List ℕ) :
    order.foldl (fun m i => MapResult.set size m i ((chunk size items i).mapM f))
      ⟨filled g size items S, none⟩ = ⟨filled g size items (S ++ order), none⟩ := by
  induction order generalizing S with
  | nil => simp
  | cons i order ih =>
    rw [List.foldl_cons, mapM_ok (g := g) (fun x hx => hf x (chunk_subset hx))]
    have hset : MapResult.set size ⟨filled g size items S, none⟩ i
        (Except.ok ((chunk size items i).map g)) = ⟨filled g size items (S ++ [i]), none⟩ := by
      simp only [MapResult.set]
      rw [filled_step g hs items S (ho i (by simp))]
    rw [hset, ih (fun j hj => ho j (by simp [hj]))]
    simp

theorem fold_failure {α β : Type} {f : α → Except PyErr β} {size : ℕ} {items : List α}
    (order : List ℕ) (m : MapResult β) {e : PyErr} (h : m.failure = some e) :
    order.foldl (fun m i => MapResult.set size m i ((chunk size items i).mapM f)) m = m := by
  induction order with
  | nil => rfl
  | cons i order ih =>
    rw [List.foldl_cons]
    have : MapResult.set size m i ((chunk size items i).mapM f) = m := by
      unfold MapResult.set; rw [h]
    rw [this, ih]

theorem fold_error {α β : Type} {f : α → Except PyErr β} {size : ℕ} {items : List α}
    (order : List ℕ) (m : MapResult β) {i : ℕ} (hi : i ∈ order)
    (hc : ∃ e, (chunk size items i).mapM f = .error e)
    (hm : ∀ e, m.failure = some e → ∃ x ∈ items, f x = .error e) :
    ∃ e, (order.foldl (fun m i => MapResult.set size m i ((chunk size items i).mapM f)) m).failure
      = some e ∧ ∃ x ∈ items, f x = .error e := by
  induction order generalizing m with
  | nil => simp at hi
  | cons j order ih =>
    cases hfail : m.failure with
    | some e =>
      rw [fold_failure _ m hfail]
      exact ⟨e, hfail, hm e hfail⟩
    | none =>
      rw [List.foldl_cons]
      cases hj : (chunk size items j).mapM f with
      | error e =>
        have hset : MapResult.set size m j (Except.error e) = { m with failure := some e } := by
          unfold MapResult.set; rw [hfail]
        rw [hset, fold_failure _ _ rfl]
        obtain ⟨x, hx, he⟩ := mapM_error_mem hj
        exact ⟨e, rfl, x, chunk_subset hx, he⟩
      | ok l =>
        have hset : (MapResult.set size m j (Except.ok l)).failure = none := by
          unfold MapResult.set; rw [hfail]
        apply ih
        · rcases List.mem_cons.mp hi with rfl | h
          · obtain ⟨e, he⟩ := hc; rw [he] at hj; cases hj
          · exact h
        · intro e he; rw [hset] at he; cases he

theorem map_ok {α β : Type} {f : α → Except PyErr β} {size : ℕ} (hs : 0 < size) {items : List α}
    {order : List ℕ} (ho : order.Perm (List.range (nbChunks size items.length))) {l : List β}
    (h : items.mapM f = .ok l) : Pool.map f size order items = .ok l := by
  cases hz : items with
  | nil =>
    subst hz
    simp [pure, Except.pure] at h
    subst h
    have : order = [] := by
      have : nbChunks size ([] : List α).length = 0 := by
        unfold nbChunks
        rw [Nat.div_eq_zero_iff]
        right
        simp only [List.length_nil]
        omega
      rw [this] at ho
      simpa using ho
    subst this
    rfl
  | cons a items' =>
    rw [← hz]
    have hok := mapM_ok_inv h
    obtain ⟨b0, _⟩ := hok a (by rw [hz]; simp)
    let g : α → β := fun x => match f x with
      | .ok y => y
      | .error _ => b0
    have hg : ∀ x ∈ items, f x = .ok (g x) := by
      intro x hx
      obtain ⟨y, hy⟩ := hok x hx
      simp only [g, hy]
    have hl : l = items.map g := by
      rw [mapM_ok hg] at h
      cases h; rfl
    unfold Pool.map
    have h0 : List.replicate items.length (none : Option β) = filled g size items [] := by
      unfold filled
      simp
    rw [h0, fold_ok g hs hg order (fun i hi => by simpa using (ho.mem_iff.mp hi))]
    have h1 : filled g size items ([] ++ order) = (items.map g).map some := by
      apply List.ext_getElem?
      intro m
      rw [filled_get]
      by_cases hm : m < items.length
      · rw [List.getElem?_eq_getElem hm]
        have : m / size ∈ order :=
          ho.mem_iff.mpr (by simpa using div_lt_nbChunks hs hm)
        simp [hm, this]
      · simp [hm]
    rw [h1, hl]
    simp only [MapResult.get]
    rw [List.mapM_map]
    refine (mapM_ok (g := id) ?_).trans (by rw [List.map_id])
    intro x _
    rfl

theorem map_error {α β : Type} {f : α → Except PyErr β} {size : ℕ} (hs : 0 < size) {items : List α}
    {order : List ℕ} (ho : order.Perm (List.range (nbChunks size items.length))) {e : PyErr}
    (h : items.mapM f = .error e) :
    ∃ e', Pool.map f size order items = .error e' ∧ ∃ x ∈ items, f x = .error e' := by
  obtain ⟨x, hx, he⟩ := mapM_error_mem h
  obtain ⟨m, hm, rfl⟩ := List.getElem_of_mem hx
  obtain ⟨e', h1, h2⟩ := fold_error (f := f) (size := size) (items := items) order
    ⟨List.replicate items.length none, none⟩ (i := m / size)
    (ho.mem_iff.mpr (by simpa using div_lt_nbChunks hs hm))
    (mapM_error_of (mem_chunk hs hm) he) (by simp)
  refine ⟨e', ?_, h2⟩
  unfold Pool.map MapResult.get
  rw [h1]

end Hadar.Pool
