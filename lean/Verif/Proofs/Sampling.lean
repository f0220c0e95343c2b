import Verif.Spec.Sampling
import Verif.Proofs.Shuffler
import Verif.Proofs.Pool

/-!
# Chunks of timelines and the generator they share
-/

namespace Hadar

open Spec

variable {σ : Type} (g : Rng σ) (w : PipeWorld σ) (nb : ℕ) (env : ℕ → Rand σ)

/-- the generator after a list of items -/
def afterItems (items : List ((String × Source) × ℕ)) (st : σ) : σ :=
  items.foldl (fun st it => (Source.sampleApart g w nb (env it.2) it.1.2 st).2) st

/-- the items of the same chunk that come before the `p`-th -/
def beforeItem {α : Type} (items : List α) (size p : ℕ) : List α := (items.drop (p / size * size)).take (p % size)

/-- the state of the sampler when the `p`-th item is run -/
def stateAt (items : List ((String × Source) × ℕ)) (size : ℕ) (st : σ) (p : ℕ) : σ :=
  afterItems g w nb env (beforeItem items size p) st

/-- what is done for an item -/
def apartTask (items : List ((String × Source) × ℕ)) (size : ℕ) (st : σ) (item : (String × Source) × ℕ) :
    Except PyErr (String × Rows) :=
  (Source.sampleApart g w nb (env item.2) item.1.2 (stateAt g w nb env items size st item.2)).1.map fun rows =>
    (item.1.1, rows)

variable {g w nb env}

theorem chunkApart_eq {items : List ((String × Source) × ℕ)} {size : ℕ} {st : σ}
    (rest pre : List ((String × Source) × ℕ))
    (h : ∀ j (hj : j < rest.length), beforeItem items size rest[j].2 = pre ++ rest.take j) :
    Shuffler.chunkApart g w nb env (afterItems g w nb env pre st) rest = rest.mapM (apartTask g w nb env items size st) := by
  induction rest generalizing pre with
  | nil => rfl
  | cons it rest ih =>
    have h0 := h 0 (by simp)
    simp only [List.getElem_cons_zero, List.take_zero, List.append_nil] at h0
    have e : afterItems g w nb env (pre ++ [it]) st =
        (Source.sampleApart g w nb (env it.2) it.1.2 (afterItems g w nb env pre st)).2 := by
      simp [afterItems]
    rw [List.mapM_cons]
    unfold Shuffler.chunkApart apartTask stateAt
    rw [h0]
    have ih' := ih (pre ++ [it]) fun j hj => by
      have := h (j + 1) (by simpa using hj)
      simpa using this
    rw [e] at ih'
    cases hs : Source.sampleApart g w nb (env it.2) it.1.2 (afterItems g w nb env pre st) with
    | mk x st' =>
      rw [hs] at ih'
      cases x with
      | error e => rfl
      | ok rows =>
        dsimp only at ih' ⊢
        rw [ih']
        simp only [Except.map, bind, Except.bind, pure, Except.pure]
        rfl

theorem chunk_get {α : Type} {l : List α} {size i j : ℕ} (hj : j < (Pool.chunk size l i).length) :
    j < size ∧ l[i * size + j]? = some (Pool.chunk size l i)[j] := by
  have h2 := hj
  unfold Pool.chunk at hj ⊢
  rw [List.length_take] at hj
  refine ⟨by omega, ?_⟩
  rw [List.getElem_take, List.getElem_drop, List.getElem?_eq_getElem]

theorem mapChunks_eq (s : Shuffler) {size : ℕ} (hsize : 0 < size) (order : List ℕ) (st : σ) :
    Pool.mapChunks (Shuffler.chunkApart g w nb env st) size order (List.zipIdx s) =
      Pool.map (apartTask g w nb env (List.zipIdx s) size st) size order (List.zipIdx s) := by
  unfold Pool.mapChunks Pool.map
  have : ∀ i, Shuffler.chunkApart g w nb env st (Pool.chunk size (List.zipIdx s) i) =
      (Pool.chunk size (List.zipIdx s) i).mapM (apartTask g w nb env (List.zipIdx s) size st) := by
    intro i
    refine chunkApart_eq (Pool.chunk size (List.zipIdx s) i) [] fun j hj => ?_
    obtain ⟨h1, h2⟩ := chunk_get hj
    have h3 : (Pool.chunk size (List.zipIdx s) i)[j].2 = i * size + j := by
      have := List.mem_of_getElem? h2
      rw [List.getElem?_zipIdx] at h2
      cases hx : s[i * size + j]? with
      | none => rw [hx] at h2; simp at h2
      | some x =>
        rw [hx] at h2
        simp only [Option.map_some, Option.some.injEq] at h2
        rw [← h2]
        simp
    rw [h3, beforeItem, List.nil_append]
    have h4 : (i * size + j) / size = i := by
      rw [Nat.mul_comm, Nat.mul_add_div hsize, Nat.div_eq_of_lt h1, Nat.add_zero]
    have h5 : (i * size + j) % size = j := by
      rw [Nat.mul_comm, Nat.mul_add_mod, Nat.mod_eq_of_lt h1]
    rw [h4, h5, Pool.chunk, List.take_take, Nat.min_eq_left h1.le]
  simp only [this]

theorem stateAt_first (items : List ((String × Source) × ℕ)) {size p : ℕ} (st : σ) (h : p % size = 0) :
    stateAt g w nb env items size st p = st := by
  simp [stateAt, beforeItem, h, afterItems]

theorem stateAt_next {items : List ((String × Source) × ℕ)} {size p : ℕ} (hsize : 0 < size) (st : σ)
    (h : (p + 1) % size ≠ 0) {it : (String × Source) × ℕ} (hp : items[p]? = some it) :
    stateAt g w nb env items size st (p + 1) =
      (Source.sampleApart g w nb (env it.2) it.1.2 (stateAt g w nb env items size st p)).2 := by
  have e1 : (p + 1) / size = p / size := by
    have hd : ¬ size ∣ p + 1 := fun hd => h (Nat.mod_eq_zero_of_dvd hd)
    rw [Nat.succ_div, if_neg hd, Nat.add_zero]
  have e2 : (p + 1) % size = p % size + 1 := by
    have h1 := Nat.div_add_mod (p + 1) size
    have h2 := Nat.div_add_mod p size
    rw [e1] at h1
    omega
  unfold stateAt beforeItem
  rw [e1, e2, List.take_add_one]
  have h3 : (items.drop (p / size * size))[p % size]? = some it := by
    rw [List.getElem?_drop, Nat.mul_comm, Nat.div_add_mod, hp]
  rw [h3]
  simp [afterItems]

theorem sampleApart_ok {r : Rand σ} {src : Source} {st : σ} {d : Rows} (hd : HasData g w r src d) :
    Source.sampleApart g w nb r src st = match npRandint g 0 d.length nb ⟨st, r.os⟩ with
    | (.error e, r') => (.error e, r'.np)
    | (.ok sampling, r') => (gather d sampling, r'.np) := by
  unfold Source.sampleApart
  rcases hd with h | ⟨h, h'⟩
  · rw [h]; rfl
  · rw [h, h']; rfl

theorem npRandint_drawn {n : ℕ} {st : σ} {os} {x} {r' : Rand σ} (h : npRandint g 0 (n : ℕ) nb ⟨st, os⟩ = (.ok x, r')) :
    x = draws g nb n st ∧ r'.np = drawn g nb n st := by
  unfold npRandint at h
  unfold draws drawn
  split at h
  · rename_i h0
    simp only [Prod.mk.injEq, Except.ok.injEq] at h
    simp [h0, ← h.1, ← h.2]
  · rename_i h0
    split at h
    · simp at h
    · simp only [Prod.mk.injEq, Except.ok.injEq] at h
      simp [h0, ← h.1, ← h.2]

theorem sampleApart_rows (hg : Lawful g) {r : Rand σ} {src : Source} {st : σ} {rows : Rows}
    (h : (Source.sampleApart g w nb r src st).1 = .ok rows) :
    ∃ d, HasData g w r src d ∧ Picked d (draws g nb d.length st) rows ∧ rows.length = nb ∧
      (Source.sampleApart g w nb r src st).2 = drawn g nb d.length st := by
  obtain ⟨d, hd⟩ : ∃ d, HasData g w r src d := by
    unfold Source.sampleApart at h
    cases hs : src.data with
    | some d => exact ⟨d, .inl hs⟩
    | none =>
      rw [hs] at h
      cases hc : (src.origin.compute g w r).1 with
      | error e => rw [hc] at h; simp at h
      | ok d => exact ⟨d, .inr ⟨hs, hc⟩⟩
  rw [sampleApart_ok hd] at h ⊢
  cases hr : npRandint g 0 d.length nb ⟨st, r.os⟩ with
  | mk x r' =>
    rw [hr] at h
    cases x with
    | error e => simp at h
    | ok ix =>
      obtain ⟨e1, e2⟩ := npRandint_drawn hr
      dsimp only at h ⊢
      have hin : ix.length = nb ∧ ∀ z ∈ ix, 0 ≤ z ∧ z < (d.length : ℤ) := by
        unfold npRandint at hr
        split at hr
        · rename_i h0
          simp only [Prod.mk.injEq, Except.ok.injEq] at hr
          simp [← hr.1, h0]
        · split at hr
          · simp at hr
          · rename_i hlt
            simp only [Prod.mk.injEq, Except.ok.injEq] at hr
            rw [← hr.1]
            exact ⟨hg.randint_length _ _ _ _ (by omega), hg.randint_mem _ _ _ _ (by omega)⟩
      rw [gather_eq hin.2] at h
      cases h
      have hp := picked_of_range hin.2
      exact ⟨d, hd, e1 ▸ hp, hp.length.trans hin.1, e2⟩

/-- a shuffle that succeeds: what each timeline is given -/
theorem shuffleApart_ok (hg : Lawful g) {s : Shuffler} (hk : (Dict.keys s).Nodup) {size : ℕ} (hsize : 0 < size)
    {order : List ℕ} (ho : order.Perm (List.range (Pool.nbChunks size s.length))) {st : σ} {res : Dict String Rows}
    (h : (Shuffler.shuffleApart g w env size order s nb st).1 = .ok res) :
    res.keys = Dict.keys s ∧ ∀ p name src, s[p]? = some (name, src) →
      ∃ d rows, HasData g w (env p) src d ∧ res.get? name = some rows ∧ rows.length = nb ∧
        Picked d (draws g nb d.length (stateAt g w nb env (List.zipIdx s) size st p)) rows ∧
        (Source.sampleApart g w nb (env p) src (stateAt g w nb env (List.zipIdx s) size st p)).2 =
          drawn g nb d.length (stateAt g w nb env (List.zipIdx s) size st p) := by
  unfold Shuffler.shuffleApart at h
  rw [mapChunks_eq s hsize order st] at h
  have ho' : order.Perm (List.range (Pool.nbChunks size (List.zipIdx s).length)) := by simpa using ho
  cases hm : (List.zipIdx s).mapM (apartTask g w nb env (List.zipIdx s) size st) with
  | error e =>
    obtain ⟨e', he, _⟩ := Pool.map_error hsize ho' hm
    rw [he] at h
    simp [bind, Except.bind] at h
  | ok l =>
    rw [Pool.map_ok hsize ho' hm] at h
    simp only [bind, Except.bind, Except.ok.injEq] at h
    have hf := (mapM_ok_forall₂ hm).imp (S := fun item out => out.1 = item.1.1 ∧
      (Source.sampleApart g w nb (env item.2) item.1.2 (stateAt g w nb env (List.zipIdx s) size st item.2)).1 =
        .ok out.2) (by
        intro item out ht
        unfold apartTask at ht
        cases hr : (Source.sampleApart g w nb (env item.2) item.1.2
          (stateAt g w nb env (List.zipIdx s) size st item.2)).1 with
        | error e => rw [hr] at ht; simp [Except.map] at ht
        | ok rows =>
          rw [hr] at ht
          simp only [Except.map, Except.ok.injEq] at ht
          subst ht
          exact ⟨rfl, rfl⟩)
    have hkeys : l.map Prod.fst = Dict.keys s := by
      have h1 : l.map Prod.fst = (List.zipIdx s).map (fun x => x.1.1) := by
        clear hm h ho'
        generalize hz : List.zipIdx s = items at hf
        generalize stateAt g w nb env items size st = f at hf
        clear hz
        induction hf with
        | nil => rfl
        | cons hx _ ih => simp [hx.1, ih]
      rw [h1, Dict.keys]
      conv_rhs => rw [← List.zipIdx_map_fst 0 s]
      rw [List.map_map]
      rfl
    rw [Dict.ofList_of_nodup (by rw [hkeys]; exact hk)] at h
    subst h
    refine ⟨hkeys, fun p name src hp => ?_⟩
    have hz : (List.zipIdx s)[p]? = some ((name, src), p) := by
      rw [List.getElem?_zipIdx, hp]
      simp
    obtain ⟨hlt, hz'⟩ := List.getElem?_eq_some_iff.1 hz
    have hl := hf.length_eq
    have hx := List.forall₂_iff_get.1 hf |>.2 p hlt (hl ▸ hlt)
    simp only [List.get_eq_getElem, hz'] at hx
    obtain ⟨d, h1, h2, h3, h4⟩ := sampleApart_rows hg hx.2
    refine ⟨d, _, h1, ?_, h3, h2, h4⟩
    refine Dict.get?_of_mem (by rw [Dict.keys, hkeys]; exact hk) ?_
    have hmem := List.getElem_mem (l := l) (hl ▸ hlt)
    rwa [show l[p]'(hl ▸ hlt) = (name, (l[p]'(hl ▸ hlt)).2) from Prod.ext hx.1 rfl] at hmem

theorem sampleApart_raw {w' : PipeWorld σ} {r r' : Rand σ} {src : Source} {d : Rows} (h : src.data = some d) (st : σ) :
    Source.sampleApart g w nb r src st = Source.sampleApart g w' nb r' src st := by
  rw [sampleApart_ok (.inl h), sampleApart_ok (.inl h)]
  unfold npRandint
  by_cases h0 : nb = 0
  · simp [h0]
  · by_cases h1 : (d.length : ℤ) ≤ 0
    · simp only [h0, h1, if_true, if_false]
    · simp only [h0, h1, if_false]

theorem chunkApart_raw {w' : PipeWorld σ} {env' : ℕ → Rand σ} {items : List ((String × Source) × ℕ)}
    (h : ∀ it ∈ items, ∃ d, it.1.2.data = some d) (st : σ) :
    Shuffler.chunkApart g w nb env st items = Shuffler.chunkApart g w' nb env' st items := by
  induction items generalizing st with
  | nil => rfl
  | cons it items ih =>
    obtain ⟨d, hd⟩ := h it List.mem_cons_self
    unfold Shuffler.chunkApart
    rw [sampleApart_raw (w' := w') (r' := env' it.2) hd]
    simp only [fun st => ih (fun x hx => h x (List.mem_cons_of_mem _ hx)) st]

theorem shuffleApart_again {s : Shuffler} (hr : AllRaw s) {size : ℕ} (hsize : 0 < size) {order order' : List ℕ}
    (ho : order.Perm (List.range (Pool.nbChunks size s.length)))
    (ho' : order'.Perm (List.range (Pool.nbChunks size s.length))) {w' : PipeWorld σ} {env' : ℕ → Rand σ} {st : σ}
    {res : Dict String Rows} (h : (Shuffler.shuffleApart g w env size order s nb st).1 = .ok res) :
    (Shuffler.shuffleApart g w' env' size order' s nb st).1 = .ok res := by
  have e : Pool.mapChunks (Shuffler.chunkApart g w' nb env' st) size order' (List.zipIdx s) =
      Pool.mapChunks (Shuffler.chunkApart g w nb env st) size order' (List.zipIdx s) := by
    unfold Pool.mapChunks
    have : ∀ i, Shuffler.chunkApart g w' nb env' st (Pool.chunk size (List.zipIdx s) i) =
        Shuffler.chunkApart g w nb env st (Pool.chunk size (List.zipIdx s) i) := fun i =>
      chunkApart_raw (fun it hit => by
        have h1 := List.mem_of_mem_drop (List.mem_of_mem_take hit)
        obtain ⟨⟨n, src⟩, k⟩ := it
        rw [List.mem_zipIdx_iff_getElem?] at h1
        exact hr _ (List.mem_of_getElem? h1)) st
    simp only [this]
  unfold Shuffler.shuffleApart at h ⊢
  dsimp only at h ⊢
  rw [e, mapChunks_eq s hsize order' st]
  rw [mapChunks_eq s hsize order st] at h
  have e1 : order.Perm (List.range (Pool.nbChunks size (List.zipIdx s).length)) := by simpa using ho
  have e2 : order'.Perm (List.range (Pool.nbChunks size (List.zipIdx s).length)) := by simpa using ho'
  cases hm : (List.zipIdx s).mapM (apartTask g w nb env (List.zipIdx s) size st) with
  | error e =>
    obtain ⟨e', he, _⟩ := Pool.map_error hsize e1 hm
    rw [he] at h
    simp [bind, Except.bind] at h
  | ok l =>
    rw [Pool.map_ok hsize e1 hm] at h
    rw [Pool.map_ok hsize e2 hm]
    exact h

end Hadar
