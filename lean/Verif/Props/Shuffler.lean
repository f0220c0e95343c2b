import Verif.Proofs.Shuffler
import Verif.Props.PipelineExamples

/-!
# Properties of the shuffler (C57, C58)
-/

namespace Hadar.Props

open Hadar Spec

variable {σ : Type}

/-! ### C57: sampling draws existing scenarios -/

/-- Sampling data that is there gives `nb` rows, the k-th one being the row of the data at the k-th index drawn;
the data stays the same. -/
theorem C57 (g : Rng σ) (w : PipeWorld σ) {sampler : Sampler σ} (hs : DrawsInRange sampler) {nb : ℕ} {d : Rows}
    {o : Origin} {r : Rand σ} {rows : Rows} {s}
    (h : Source.sample g w sampler nb (⟨some d, o⟩, r) = (.ok rows, s)) :
    rows.length = nb ∧ (∀ row ∈ rows, row ∈ d) ∧ s.1 = ⟨some d, o⟩ ∧
      ∃ ix, sampler 0 d.length nb r = (.ok ix, s.2) ∧ Picked d ix rows := by
  obtain ⟨h1, ix, h2, h3, h4⟩ := sample_ok hs h
  exact ⟨h4.length.trans h3, h4.mem, h1, ix, h2, h4⟩

/-- Whatever the sampler draws, no row is made up: there is one row of the data per index drawn, or `IndexError`
because one of the indexes is out of range. -/
theorem C57_any (g : Rng σ) (w : PipeWorld σ) (sampler : Sampler σ) (nb : ℕ) (d : Rows) (o : Origin) (r : Rand σ)
    {ix : List ℤ} {r' : Rand σ} (hk : sampler 0 d.length nb r = (.ok ix, r')) :
    (∃ rows, (Source.sample g w sampler nb (⟨some d, o⟩, r)).1 = .ok rows ∧ rows.length = ix.length ∧
      ∀ row ∈ rows, row ∈ d) ∨
    (Source.sample g w sampler nb (⟨some d, o⟩, r)).1 = .error .indexError ∧
      ∃ z ∈ ix, z < -(d.length : ℤ) ∨ (d.length : ℤ) ≤ z := by
  rw [sample_cached, hk]
  rcases gather_mem d ix with ⟨rows, h, hl, hm, _⟩ | ⟨h, z, hz, hn⟩
  · exact .inl ⟨rows, h, hl, hm⟩
  · exact .inr ⟨h, z, hz, by omega⟩

/-- an index out of range always raises -/
theorem C57_out (g : Rng σ) (w : PipeWorld σ) (sampler : Sampler σ) (nb : ℕ) (d : Rows) (o : Origin) (r : Rand σ)
    {ix : List ℤ} {r' : Rand σ} (hk : sampler 0 d.length nb r = (.ok ix, r'))
    (hz : ∃ z ∈ ix, z < -(d.length : ℤ) ∨ (d.length : ℤ) ≤ z) :
    (Source.sample g w sampler nb (⟨some d, o⟩, r)).1 = .error .indexError := by
  rw [sample_cached, hk]
  rcases gather_mem d ix with ⟨rows, _, _, _, hr⟩ | ⟨h, _⟩
  · obtain ⟨z, hz, h⟩ := hz
    have := hr z hz
    omega
  · exact h

/-- Sampling fails only when the sampler does, and with its error. -/
theorem C57_fails (g : Rng σ) (w : PipeWorld σ) {sampler : Sampler σ} (hs : DrawsInRange sampler) (nb : ℕ) (d : Rows)
    (o : Origin) (r : Rand σ) (e : PyErr) :
    (Source.sample g w sampler nb (⟨some d, o⟩, r)).1 = .error e ↔ (sampler 0 d.length nb r).1 = .error e := by
  rw [sample_cached]
  rcases hk : sampler 0 d.length nb r with ⟨e' | ix, r'⟩
  · simp
  · simp [gather_eq (hs _ _ _ _ _ hk).2]

/-- numpy's `randint`, the default sampler, is in range -/
theorem C57_randint {g : Rng σ} (hg : Lawful g) : DrawsInRange (npRandint g) := by
  intro n nb r ix r' h
  unfold npRandint at h
  split at h
  · rename_i h0
    simp only [Prod.mk.injEq, Except.ok.injEq] at h
    obtain ⟨rfl, rfl⟩ := h
    simp [h0]
  · split at h
    · simp at h
    · rename_i hlt
      simp only [Prod.mk.injEq, Except.ok.injEq] at h
      obtain ⟨rfl, rfl⟩ := h
      exact ⟨hg.randint_length _ _ _ _ (by omega), hg.randint_mem _ _ _ _ (by omega)⟩

/-- and with it sampling succeeds on any data with a row -/
theorem C57_default {g : Rng σ} (hg : Lawful g) (w : PipeWorld σ) (nb : ℕ) {d : Rows} (hd : d ≠ [])
    (o : Origin) (r : Rand σ) :
    ∃ rows s, Source.sample g w (npRandint g) nb (⟨some d, o⟩, r) = (.ok rows, s) := by
  have hlen : 0 < d.length := List.length_pos_of_ne_nil hd
  have hex : ∃ ix r', npRandint g 0 d.length nb r = (.ok ix, r') := by
    unfold npRandint
    split
    · exact ⟨_, _, rfl⟩
    · rw [if_neg (by omega)]
      exact ⟨_, _, rfl⟩
  obtain ⟨ix, r', hk⟩ := hex
  rw [sample_cached, hk]
  simp only
  rw [gather_eq (C57_randint hg _ _ _ _ _ hk).2]
  exact ⟨_, _, rfl⟩

/-- For a pipeline, data is computed the first time and kept: all samples taken from the same timeline are rows
of the same result of the pipeline. -/
theorem C57_kept (g : Rng σ) (w : PipeWorld σ) {sampler : Sampler σ} (hs : DrawsInRange sampler) {nb nb' : ℕ}
    {o : Origin} {r r2 : Rand σ} {rows rows' : Rows} {s s'} (hb : NoBlank g w o)
    (h : Source.sample g w sampler nb (⟨none, o⟩, r) = (.ok rows, s))
    (h' : Source.sample g w sampler nb' (s.1, r2) = (.ok rows', s')) :
    ∃ own, Own g w r o own ∧ rows.length = nb ∧ rows'.length = nb' ∧ (∀ row ∈ rows, row ∈ own) ∧
      ∀ row ∈ rows', row ∈ own := by
  rw [sample_fresh] at h
  rcases hk : o.compute g w r with ⟨e | d, r1⟩
  · rw [hk] at h; simp at h
  rw [hk] at h
  simp only at h
  obtain ⟨h1, h2, h3, _⟩ := C57 g w hs h
  rw [h3] at h'
  obtain ⟨h4, h5, _⟩ := C57 g w hs h'
  exact ⟨d, compute_ok hk hb, h1, h4, h2, h5⟩

/-- The indexes are drawn after the pipeline has run, from the random state it leaves: the rows are those of its
result at these indexes, and what is drawn next comes after. -/
theorem C57_draws (g : Rng σ) (w : PipeWorld σ) {sampler : Sampler σ} (hs : DrawsInRange sampler) {nb : ℕ}
    {df t : Timeline} {p : ℕ} {r : Rand σ} {s1} (hb : NoBlank g w (.pipe df p))
    (hrun : w.callPipe g p (.multi df, r) = (.ok t, s1)) {rows : Rows} {s}
    (h : Source.sample g w sampler nb (⟨none, .pipe df p⟩, r) = (.ok rows, s)) :
    ∃ own ix, Own g w r (.pipe df p) own ∧ sampler 0 own.length nb s1.2 = (.ok ix, s.2) ∧ Picked own ix rows := by
  rw [sample_fresh] at h
  rcases hk : (Origin.pipe df p).compute g w r with ⟨e | d, r1⟩
  · rw [hk] at h; simp at h
  rw [hk] at h
  simp only at h
  obtain ⟨_, _, _, ix, h1, h2⟩ := C57 g w hs h
  have hr1 : r1 = s1.2 := by
    simp only [Origin.compute, hrun, Prod.mk.injEq] at hk
    exact hk.2.symm
  subst hr1
  exact ⟨d, ix, compute_ok hk hb, h1, h2⟩

/-! ### C58: shuffling keeps timelines apart -/

/-- items of the shuffler and results of the workers correspond -/
theorem shuffle_ok {g : Rng σ} {w : PipeWorld σ} {sampler : Sampler σ} {env : ℕ → Rand σ} {size : ℕ}
    (hsize : 0 < size) {order : List ℕ} {s : Shuffler} {nb : ℕ} {res : Dict String Rows}
    (ho : order.Perm (List.range (Pool.nbChunks size s.length))) (hk : (Dict.keys s).Nodup)
    (h : Shuffler.shuffle g w sampler env size order s nb = .ok res) :
    List.Forall₂ (fun item out => out.1 = item.1.1 ∧
      (Source.sample g w sampler nb (item.1.2, env item.2)).1 = .ok out.2) (List.zipIdx s) res := by
  unfold Shuffler.shuffle at h
  have ho' : order.Perm (List.range (Pool.nbChunks size (List.zipIdx s).length)) := by simpa using ho
  cases hm : (List.zipIdx s).mapM (Shuffler.task g w sampler nb env) with
  | error e =>
    obtain ⟨e', he, _⟩ := Pool.map_error hsize ho' hm
    rw [he] at h
    simp [bind, Except.bind] at h
  | ok l =>
    rw [Pool.map_ok hsize ho' hm] at h
    simp only [bind, Except.bind, Except.ok.injEq] at h
    have hf : List.Forall₂ (fun item out => out.1 = item.1.1 ∧
        (Source.sample g w sampler nb (item.1.2, env item.2)).1 = .ok out.2) (List.zipIdx s) l := by
      refine (mapM_ok_forall₂ hm).imp ?_
      intro item out ht
      unfold Shuffler.task at ht
      cases hr : (Source.sample g w sampler nb (item.1.2, env item.2)).1 with
      | error e => rw [hr] at ht; simp [bind, Except.bind] at ht
      | ok rows =>
        rw [hr] at ht
        simp only [bind, Except.bind, Except.ok.injEq] at ht
        subst ht
        exact ⟨rfl, rfl⟩
    have hkeys : l.map Prod.fst = Dict.keys s := by
      have h1 : l.map Prod.fst = (List.zipIdx s).map (fun x => x.1.1) := by
        clear hm h ho'
        generalize List.zipIdx s = items at hf
        induction hf with
        | nil => rfl
        | cons hx _ ih => simp [hx.1, ih]
      rw [h1, Dict.keys]
      conv_rhs => rw [← List.zipIdx_map_fst 0 s]
      rw [List.map_map]
      rfl
    rw [Dict.ofList_of_nodup (by rw [hkeys]; exact hk)] at h
    subst h
    exact hf

theorem forall₂_exists {α β : Type} {R : α → β → Prop} {l : List α} {m : List β} (h : List.Forall₂ R l m) :
    (∀ a ∈ l, ∃ b ∈ m, R a b) ∧ ∀ b ∈ m, ∃ a ∈ l, R a b := by
  induction h with
  | nil => simp
  | cons hx _ ih =>
    refine ⟨?_, ?_⟩
    · intro a ha
      rcases List.mem_cons.1 ha with rfl | ha
      · exact ⟨_, List.mem_cons_self, hx⟩
      · obtain ⟨b, hb, hr⟩ := ih.1 a ha
        exact ⟨b, List.mem_cons_of_mem _ hb, hr⟩
    · intro b hb
      rcases List.mem_cons.1 hb with rfl | hb
      · exact ⟨_, List.mem_cons_self, hx⟩
      · obtain ⟨a, ha, hr⟩ := ih.2 b hb
        exact ⟨a, List.mem_cons_of_mem _ ha, hr⟩

theorem registered_iff (regs : List (PipeWorld σ × Registration)) (name : String) (src : Source) :
    (name, src) ∈ registerAll regs [] ↔ ∃ o, Last regs name o ∧ src = fresh o := by
  have hk : (Dict.keys (registerAll regs [])).Nodup := registerAll_nodup regs [] (by simp [Dict.keys])
  have hg := registerAll_get regs [] name src
  simp only [Dict.get?, reduceCtorEq, and_false, or_false] at hg
  rw [← hg]
  exact ⟨fun h => Dict.get?_of_mem hk h, fun h => Dict.mem_of_get? h⟩

/-- The full claim is for all pipelines; it is proved for those whose result has no column with an empty name
as only column to drop. After any registrations, a shuffle that succeeds gives a result for exactly the
registered names; for each name, `nb` rows, each of them a row of what was last registered under that name,
for a pipeline the columns `to_shuffler` of its result. Workers may finish in any order and be in any random
state. -/
theorem C58_partial (g : Rng σ) (w : PipeWorld σ) {sampler : Sampler σ} (hs : DrawsInRange sampler)
    (env : ℕ → Rand σ) {size : ℕ} (hsize : 0 < size) (regs : List (PipeWorld σ × Registration))
    (hb : ∀ name o, Last regs name o → NoBlank g w o) {order : List ℕ}
    (ho : order.Perm (List.range (Pool.nbChunks size (registerAll regs []).length))) {nb : ℕ}
    {res : Dict String Rows}
    (h : Shuffler.shuffle g w sampler env size order (registerAll regs []) nb = .ok res) :
    (∀ name, name ∈ res.keys ↔ ∃ o, Last regs name o) ∧
    ∀ name o, Last regs name o → ∃ rows own i, res.get? name = some rows ∧ rows.length = nb ∧
      Own g w (env i) o own ∧ ∀ row ∈ rows, row ∈ own := by
  have hk : (Dict.keys (registerAll regs [])).Nodup := registerAll_nodup regs [] (by simp [Dict.keys])
  have hf := shuffle_ok hsize ho hk h
  obtain ⟨hf1, hf2⟩ := forall₂_exists hf
  have hkeys : res.keys = Dict.keys (registerAll regs []) := by
    have h1 : res.map Prod.fst = (List.zipIdx (registerAll regs [])).map (fun x => x.1.1) := by
      clear hf1 hf2 h ho
      generalize List.zipIdx (registerAll regs []) = items at hf
      induction hf with
      | nil => rfl
      | cons hx _ ih => simp [hx.1, ih]
    rw [Dict.keys, h1, Dict.keys]
    conv_rhs => rw [← List.zipIdx_map_fst 0 (registerAll regs [])]
    rw [List.map_map]
    rfl
  constructor
  · intro name
    rw [hkeys, Dict.keys, List.mem_map]
    constructor
    · rintro ⟨⟨n, src⟩, hm, rfl⟩
      obtain ⟨o, ho, _⟩ := (registered_iff regs n src).1 hm
      exact ⟨o, ho⟩
    · rintro ⟨o, ho⟩
      exact ⟨(name, fresh o), (registered_iff regs name _).2 ⟨o, ho, rfl⟩, rfl⟩
  · intro name o hlast
    have hm := (registered_iff regs name (fresh o)).2 ⟨o, hlast, rfl⟩
    obtain ⟨i, hi, hget⟩ := List.getElem_of_mem hm
    have hz : ((name, fresh o), i) ∈ List.zipIdx (registerAll regs []) := by
      rw [List.mem_zipIdx_iff_getElem?]
      simp [List.getElem?_eq_getElem hi, hget]
    obtain ⟨⟨n, rows⟩, hmem, hn, hsample⟩ := hf1 _ hz
    simp only at hn hsample
    subst hn
    have hsample' : Source.sample g w sampler nb (fresh o, env i) =
        (.ok rows, (Source.sample g w sampler nb (fresh o, env i)).2) := Prod.ext hsample rfl
    obtain ⟨own, ix, h1, h2, h3⟩ := sample_fresh_ok hs (hb _ o hlast) hsample'
    exact ⟨rows, own, i, Dict.get?_of_mem (by rw [hkeys]; exact hk) hmem, h3.length.trans h2, h1, h3.mem⟩

/-- A shuffle that fails, fails as sampling one of the registered timelines does. -/
theorem C58_fails (g : Rng σ) (w : PipeWorld σ) (sampler : Sampler σ) (env : ℕ → Rand σ) {size : ℕ}
    (hsize : 0 < size) (regs : List (PipeWorld σ × Registration)) {order : List ℕ}
    (ho : order.Perm (List.range (Pool.nbChunks size (registerAll regs []).length))) {nb : ℕ} {e : PyErr}
    (h : Shuffler.shuffle g w sampler env size order (registerAll regs []) nb = .error e) :
    ∃ name o i, Last regs name o ∧ (Source.sample g w sampler nb (fresh o, env i)).1 = .error e := by
  unfold Shuffler.shuffle at h
  have ho' : order.Perm (List.range (Pool.nbChunks size (List.zipIdx (registerAll regs [])).length)) := by
    simpa using ho
  cases hm : (List.zipIdx (registerAll regs [])).mapM (Shuffler.task g w sampler nb env) with
  | ok l =>
    rw [Pool.map_ok hsize ho' hm] at h
    simp [bind, Except.bind] at h
  | error e0 =>
    obtain ⟨e', he, ⟨⟨n, src⟩, i⟩, hx, hf⟩ := Pool.map_error hsize ho' hm
    rw [he] at h
    simp only [bind, Except.bind, Except.error.injEq] at h
    subst h
    have hmem : (n, src) ∈ registerAll regs [] := by
      rw [List.mem_zipIdx_iff_getElem?] at hx
      exact List.mem_of_getElem? hx
    obtain ⟨o, hlast, rfl⟩ := (registered_iff regs n src).1 hmem
    refine ⟨n, o, i, hlast, ?_⟩
    unfold Shuffler.task at hf
    cases hr : (Source.sample g w sampler nb (fresh o, env i)).1 with
    | error e => rw [hr] at hf; simpa [bind, Except.bind] using hf
    | ok rows => rw [hr] at hf; simp [bind, Except.bind] at hf

/-- The order in which workers finish and the size of chunks do not matter: a shuffle that succeeds with some
gives the same with any other (in the same random states). -/
theorem C58_schedule (g : Rng σ) (w : PipeWorld σ) (sampler : Sampler σ) (env : ℕ → Rand σ) (s : Shuffler)
    {size size' : ℕ} (hsize : 0 < size) (hsize' : 0 < size') {order order' : List ℕ}
    (ho : order.Perm (List.range (Pool.nbChunks size s.length)))
    (ho' : order'.Perm (List.range (Pool.nbChunks size' s.length))) {nb : ℕ} {res : Dict String Rows}
    (h : Shuffler.shuffle g w sampler env size order s nb = .ok res) :
    Shuffler.shuffle g w sampler env size' order' s nb = .ok res := by
  unfold Shuffler.shuffle at h ⊢
  have e1 : order.Perm (List.range (Pool.nbChunks size (List.zipIdx s).length)) := by simpa using ho
  have e2 : order'.Perm (List.range (Pool.nbChunks size' (List.zipIdx s).length)) := by simpa using ho'
  cases hm : (List.zipIdx s).mapM (Shuffler.task g w sampler nb env) with
  | error e =>
    obtain ⟨e', he, _⟩ := Pool.map_error hsize e1 hm
    rw [he] at h
    simp [bind, Except.bind] at h
  | ok l =>
    rw [Pool.map_ok hsize e1 hm] at h
    rw [Pool.map_ok hsize' e2 hm]
    exact h

/-- Adding a pipeline: accepted exactly when the data has the columns required and the pipeline announces
`to_shuffler`; refused with `ValueError` otherwise, and then the shuffler is unchanged. The frame of the caller
keeps its values, with its scenarios made explicit. -/
theorem C58_added (w : PipeWorld σ) (name : String) (p : ℕ) (d : Data) (s : Shuffler) :
    ((Shuffler.addPipeline w name p (d, s)).1 = .ok () ↔ Acceptable w (.pipeline name d p)) ∧
    (¬ Acceptable w (.pipeline name d p) →
      (Shuffler.addPipeline w name p (d, s)).1 = .error .valueError ∧
      (Shuffler.addPipeline w name p (d, s)).2.2 = s) ∧
    ∀ t, Labelled d t → (Shuffler.addPipeline w name p (d, s)).2.1 = .multi t := by
  have hc := check_ok (w := w) (p := p) (d := d) (name := name)
  unfold Shuffler.addPipeline
  rcases hk : Shuffler.check w p d.timeline with e | u
  · have := check_error hk
    subst this
    rw [hk] at hc
    simp only [reduceCtorEq, false_iff] at hc
    simpa [hk, hc] using fun t ht => (Spec.Labelled.eq ht).symm
  · rw [hk] at hc
    simp only [true_iff] at hc
    simpa [hk, hc] using fun t ht => (Spec.Labelled.eq ht).symm

/-- An accepted pipeline that keeps its word (see C48) produces `to_shuffler`: computing its data fails only
if running the pipeline fails. -/
theorem C58_accepted (g : Rng σ) {w : PipeWorld σ} {p : ℕ} {sl : List (Stage σ)} (ht : Trusty g w p sl)
    {name : String} {d : Data} {t : Timeline} (hd : Labelled d t) (ha : Acceptable w (.pipeline name d p))
    (r : Rand σ) :
    (∀ t' s, w.callPipe g p (.multi t, r) = (.ok t', s) → has t' "to_shuffler") ∧
    ∀ e, ((Origin.pipe t p).compute g w r).1 = .error e → (w.callPipe g p (.multi t, r)).1 = .error e := by
  obtain ⟨plug, l, hp, hin, hout⟩ := ha
  obtain ⟨plug', l', hp', hst, hrun⟩ := C48_run g ht
  rw [hp] at hp'
  simp only [Option.some.injEq, Prod.mk.injEq] at hp'
  obtain ⟨rfl, rfl⟩ := hp'
  have key : ∀ t' s, w.callPipe g p (.multi t, r) = (.ok t', s) → has t' "to_shuffler" := by
    intro t' s hcall
    have hc := (C47 g w hp (Labelled.multi t) r s.2 t').1 ⟨s.1, hcall⟩
    rw [hst] at hc
    exact ((hrun d t hd hin r).2 t' s.2 hc.2) _ hout
  refine ⟨key, ?_⟩
  intro e he
  simp only [Origin.compute] at he
  rcases hk : w.callPipe g p (.multi t, r) with ⟨e' | t', s⟩
  · rw [hk] at he
    simpa using he
  · rw [hk] at he
    have hm := (mem_names t' _).2 (key t' s hk)
    simp [toShufflerRows, hm] at he

/-- One row per scenario: when labels are not repeated, each scenario with a column `to_shuffler` has exactly
one row, in the order of columns. -/
theorem C58_rows (g : Rng σ) (w : PipeWorld σ) {r : Rand σ} {df t : Timeline} {p : ℕ} {own : Rows} {s}
    (h : Own g w r (.pipe df p) own) (ht : w.callPipe g p (.multi df, r) = (.ok t, s))
    (hn : (t.cols.map (·.1)).Nodup) :
    ∃ scns : List Cell, scns.Nodup ∧ (∀ scn, scn ∈ scns ↔ ∃ v, ((scn, "to_shuffler"), v) ∈ t.cols) ∧
      List.Forall₂ (fun scn row => ((scn, "to_shuffler"), row) ∈ t.cols) scns own := by
  cases h with
  | pipe run there hrows =>
    rw [ht] at run
    simp only [Prod.mk.injEq, Except.ok.injEq] at run
    obtain ⟨rfl, rfl⟩ := run
    have hrows' := eq_map_of_forall₂ hrows
    subst hrows'
    refine ⟨(t.cols.filter fun c => c.1.2 = "to_shuffler").map (·.1.1), ?_, ?_, ?_⟩
    · have h1 : ((t.cols.filter fun c => c.1.2 = "to_shuffler").map (·.1)).Nodup :=
        hn.sublist (List.filter_sublist.map _)
      have h2 := (List.nodup_map_iff_inj_on (f := fun x : Cell × String => x.1) h1).2 (by
        intro x hx y hy e
        obtain ⟨a, ha, rfl⟩ := List.mem_map.1 hx
        obtain ⟨b, hb, rfl⟩ := List.mem_map.1 hy
        simp only [List.mem_filter, decide_eq_true_eq] at ha hb
        exact Prod.ext e (ha.2.trans hb.2.symm))
      rw [List.map_map] at h2
      exact h2
    · intro scn
      rw [List.mem_map]
      constructor
      · rintro ⟨⟨⟨a, n⟩, v⟩, hm, rfl⟩
        simp only [List.mem_filter, decide_eq_true_eq] at hm
        obtain ⟨hm, rfl⟩ := hm
        exact ⟨v, hm⟩
      · rintro ⟨v, hm⟩
        exact ⟨_, List.mem_filter.2 ⟨hm, by simp⟩, rfl⟩
    · rw [List.forall₂_map_left_iff, List.forall₂_map_right_iff, List.forall₂_same]
      intro c hc
      simp only [List.mem_filter, decide_eq_true_eq] at hc
      obtain ⟨⟨⟨a, n⟩, v⟩, rfl⟩ : ∃ x, x = c := ⟨c, rfl⟩
      simp only at hc ⊢
      rw [← hc.2]
      exact hc.1

/-! ### Cases and counterexamples -/

example : DrawsInRange (npRandint g0) := C57_randint g0_lawful

example : (Source.sample g0 PipeWorld.empty (npRandint g0) 3
    (⟨some [[some 1, some 2], [some 3, some 4]], .raw [[some 1, some 2], [some 3, some 4]]⟩, rand 0)).1.toOption =
    some [[some 1, some 2], [some 1, some 2], [some 1, some 2]] := by decide +kernel

example : ∃ (ix : List ℤ) (sampler : Sampler ℕ), sampler 0 2 1 (rand 0) = (.ok ix, rand 0) ∧
    ∃ z ∈ ix, z < -(2 : ℤ) ∨ (2 : ℤ) ≤ z :=
  ⟨[2], fun _ high _ r => (.ok [high], r), rfl, 2, by simp, by simp⟩

/-- `Pipeline([ToShuffler("quantity")])` -/
def toShuffler : PipeWorld ℕ := (((do
    let a ← PipeWorld.newToShuffler "quantity"
    let l ← PipeWorld.newList [a]
    PipeWorld.newPipeline l) : PyM (PipeWorld ℕ) ℕ) PipeWorld.empty).2

/-- two registrations, one of them a pipeline, and a refused one -/
def registrations : List (PipeWorld ℕ × Registration) :=
  [(toShuffler, .data "solar" [[some 1, some 2]]), (toShuffler, .pipeline "load" (.multi twoScenarios) 0),
    (session, .pipeline "solar" plainData 0)]

example : Acceptable toShuffler (.pipeline "load" (.multi twoScenarios) 0) :=
  ⟨_, _, rfl, by
    intro n hn
    simp only [Plug.inputs, Dict.keys, List.map_cons, List.map_nil, List.mem_singleton] at hn
    subst hn
    exact ⟨_, _, List.mem_cons_self⟩, by decide +kernel⟩

/-- the hypotheses of `C57_draws` -/
example : (∃ t s1, toShuffler.callPipe g0 0 (.multi twoScenarios, rand 1) = (.ok t, s1) ∧ ¬ has t "") ∧
    (Source.sample g0 toShuffler (npRandint g0) 2 (⟨none, .pipe twoScenarios 0⟩, rand 1)).1.toOption =
      some [[some 10, some 20], [some 10, some 20]] := by
  refine ⟨?_, by decide +kernel⟩
  rcases hk : toShuffler.callPipe g0 0 (.multi twoScenarios, rand 1) with ⟨e | t, s1⟩
  · have : (toShuffler.callPipe g0 0 (.multi twoScenarios, rand 1)).1.toOption.isSome = true := by decide +kernel
    rw [hk] at this
    cases this
  · refine ⟨t, s1, rfl, ?_⟩
    have : ((toShuffler.callPipe g0 0 (.multi twoScenarios, rand 1)).1.toOption.map
        fun t => decide ("" ∈ t.names)) = some false := by decide +kernel
    rw [hk] at this
    rw [← mem_names]
    simpa [Except.toOption] using this

/-- the index drawn is always the first one, the last chunk finishes first -/
example : (Shuffler.shuffle g0 toShuffler (npRandint g0) (fun _ => rand 1) 1 [1, 0]
    (registerAll registrations []) 2).toOption =
    some [("solar", [[some 1, some 2], [some 1, some 2]]), ("load", [[some 10, some 20], [some 10, some 20]])] := by
  decide +kernel

/-- data with a column without name -/
def blank : Timeline := ⟨rangeIndex 1, [((.num 0, "quantity"), [some 1]), ((.num 0, ""), [some 666])]⟩

/-- A column with an empty name, beside `to_shuffler`, is not dropped: it gives rows to the sample. -/
theorem C58_refuted : ∃ own, ((Origin.pipe blank 0).compute g0 toShuffler (rand 0)).1.toOption = some own ∧
    [some 666] ∈ own ∧
    ∀ t, (toShuffler.callPipe g0 0 (.multi blank, rand 0)).1.toOption = some t →
      ∀ scn v, ((scn, "to_shuffler"), v) ∈ t.cols → v ≠ [some 666] := by
  refine ⟨[[some 1], [some 666]], by decide +kernel, by decide +kernel, ?_⟩
  have : (toShuffler.callPipe g0 0 (.multi blank, rand 0)).1.toOption =
      some ⟨rangeIndex 1, [((.num 0, "to_shuffler"), [some 1]), ((.num 0, ""), [some 666])]⟩ := by decide +kernel
  rw [this]
  rintro t ht scn v hm
  simp only [Option.some.injEq] at ht
  subst ht
  simp only [List.mem_cons, Prod.mk.injEq, List.not_mem_nil, or_false] at hm
  rcases hm with ⟨_, rfl⟩ | ⟨⟨_, h⟩, _⟩
  · decide
  · exact absurd h (by decide)

/-- `first = Rename(a="quantity", b="to_shuffler")`, `second = Rename(quantity="q")`,
`Pipeline([first, second])`, `Pipeline([second])` -/
def stale : PipeWorld ℕ := (((do
    let a ← PipeWorld.newRename [("a", "quantity"), ("b", "to_shuffler")]
    let b ← PipeWorld.newRename [("quantity", "q")]
    let l ← PipeWorld.newList [a, b]
    let _ ← PipeWorld.newPipeline l
    let m ← PipeWorld.newList [b]
    PipeWorld.newPipeline m) : PyM (PipeWorld ℕ) ℕ) PipeWorld.empty).2

/-- A pipeline that does not produce `to_shuffler` is accepted, when its stage was used in another pipeline:
the shuffle fails later, with `KeyError`. -/
theorem C58_stale_refuted : (Shuffler.addPipeline stale "x" 1 (plainData, [])).1.toOption = some () ∧
    (stale.callPipe g0 1 (plainData, rand 0)).1.toOption.map (·.names) = some ["q", "price"] ∧
    ((Origin.pipe plainData.timeline 1).compute g0 stale (rand 0)).1.toOption = none := by
  decide +kernel

/-! ### The theorems applied to concrete cases -/

/-- rows to draw from -/
def someRows : Rows := [[some 1, some 2], [some 3, some 4]]

theorem ok_state {α β : Type} {x : Except PyErr α × β} {a : α} (h : x.1.toOption = some a) : x = (.ok a, x.2) := by
  obtain ⟨y, b⟩ := x
  cases y with
  | error e => cases h
  | ok c => cases h; rfl

theorem two_renamed (r : Rand ℕ) : (toShuffler.callPipe g0 0 (.multi twoScenarios, r)).1 =
    .ok ⟨rangeIndex 2, [((.num 0, "to_shuffler"), [some 10, some 20]), ((.num 0, "price"), [some 1, some 2]),
      ((.num 7, "to_shuffler"), [some 30, some 40]), ((.num 7, "price"), [some 3, some 4])]⟩ := by rfl

theorem two_noBlank : NoBlank g0 toShuffler (.pipe twoScenarios 0) := by
  intro r t s h _
  have := two_renamed r
  rw [h] at this
  cases this
  exact ⟨"price", by decide, by decide, .num 0, _, List.mem_cons_of_mem _ List.mem_cons_self⟩

example := C57 g0 PipeWorld.empty (sampler := npRandint g0) (C57_randint g0_lawful) (nb := 3) (d := someRows) (o := .raw someRows) (r := rand 0)
  (ok_state (a := [[some 1, some 2], [some 1, some 2], [some 1, some 2]]) (by decide +kernel))
example := C57_any g0 PipeWorld.empty (fun _ high _ r => (.ok [high, 0], r)) 1 someRows (.raw someRows) (rand 0) rfl
example := C57_out g0 PipeWorld.empty (fun _ high _ r => (.ok [high], r)) 1 someRows (.raw someRows) (rand 0) rfl ⟨2, by simp [someRows], by simp [someRows]⟩
example := C57_fails g0 PipeWorld.empty (sampler := npRandint g0) (C57_randint g0_lawful) 3 [] (.raw []) (rand 0) .valueError
example := C57_default g0_lawful PipeWorld.empty 3 (d := someRows) (by simp [someRows]) (.raw someRows) (rand 0)
example := C57_kept g0 toShuffler (sampler := npRandint g0) (C57_randint g0_lawful) (nb := 2) (nb' := 3) (o := .pipe twoScenarios 0)
  (r := rand 1) (r2 := rand 5) two_noBlank
  (ok_state (a := [[some 10, some 20], [some 10, some 20]]) (by decide +kernel))
  (ok_state (a := [[some 10, some 20], [some 10, some 20], [some 10, some 20]]) (by decide +kernel))
example := C57_draws g0 toShuffler (sampler := npRandint g0) (C57_randint g0_lawful) (nb := 2) two_noBlank
  (ok_state (by rw [two_renamed (rand 1)]; rfl))
  (ok_state (a := [[some 10, some 20], [some 10, some 20]]) (by decide +kernel))

theorem registrations_noBlank (name : String) (o : Origin) (h : Last registrations name o) : NoBlank g0 toShuffler o := by
  obtain ⟨pre, w, reg, post, he, -, hacc, hr, -⟩ := h
  have hm : (w, reg) ∈ registrations := by rw [he]; simp
  simp only [registrations, List.mem_cons, Prod.mk.injEq, List.not_mem_nil, or_false] at hm
  rcases hm with ⟨rfl, rfl⟩ | ⟨rfl, rfl⟩ | ⟨rfl, rfl⟩
  · cases hr; trivial
  · cases hr with
    | pipeline h => cases h; exact two_noBlank
  · obtain ⟨plug, l, hp, -, ho⟩ := hacc
    have : session.pipes[0]? = some (.restricted ["quantity"] 0, 0) := rfl
    rw [this] at hp
    cases hp
    exact absurd ho (by decide +kernel)

theorem registrations_drawn : Shuffler.shuffle g0 toShuffler (npRandint g0) (fun _ => rand 1) 1 [1, 0]
    (registerAll registrations []) 2 =
    .ok [("solar", [[some 1, some 2], [some 1, some 2]]), ("load", [[some 10, some 20], [some 10, some 20]])] :=
  ok_of_toOption (by decide +kernel)

example := C58_partial g0 toShuffler (sampler := npRandint g0) (C57_randint g0_lawful) (fun _ => rand 1) (size := 1) (by decide) registrations
  registrations_noBlank (order := [1, 0]) (by decide +kernel) registrations_drawn
example := C58_schedule g0 toShuffler (npRandint g0) (fun _ => rand 1) (registerAll registrations []) (size := 1) (size' := 2) (by decide)
  (by decide) (order := [1, 0]) (order' := [0]) (by decide +kernel) (by decide +kernel) registrations_drawn
/-- a sampler that raises -/
example := C58_fails g0 toShuffler (fun _ _ _ r => (.error .valueError, r)) (fun _ => rand 1) (size := 1) (by decide) registrations
  (order := [1, 0]) (by decide +kernel) (nb := 2) (e := .valueError) (by rfl)

theorem two_acceptable : Acceptable toShuffler (.pipeline "load" (.multi twoScenarios) 0) :=
  ⟨_, _, rfl, by
    intro n hn
    simp only [Plug.inputs, Dict.keys, List.map_cons, List.map_nil, List.mem_singleton] at hn
    subst hn
    exact ⟨_, _, List.mem_cons_self⟩, by decide +kernel⟩

example := (C58_added toShuffler "load" 0 (.multi twoScenarios) []).1.mpr two_acceptable

/-- the session before the pipeline is built -/
def notYet : PipeWorld ℕ := (PipeWorld.newToShuffler "quantity" PipeWorld.empty).2

example : ∃ (p : ℕ) (w : PipeWorld ℕ), ((do let l ← PipeWorld.newList [0]; PipeWorld.newPipeline l) : PyM (PipeWorld ℕ) ℕ) notYet = (.ok p, w) ∧
    ∀ t' s, w.callPipe g0 p (.multi twoScenarios, rand 0) = (.ok t', s) → has t' "to_shuffler" := by
  obtain ⟨p, w, h, ht, -⟩ := C48_one g0 (w := notYet) (s := 0) rfl ⟨_, .restricted (out := ["to_shuffler"]) rfl⟩
    (honest_rename (d := [("quantity", "to_shuffler")]) (by decide +kernel) rfl)
  refine ⟨p, w, h, ?_⟩
  have e : ((do let l ← PipeWorld.newList [0]; PipeWorld.newPipeline l) : PyM (PipeWorld ℕ) ℕ) notYet = (.ok 0, toShuffler) := rfl
  rw [show ((do let l ← PipeWorld.newList [0]; PipeWorld.newPipeline l) : PyM (PipeWorld ℕ) ℕ) notYet = _ from h] at e
  cases e
  exact (C58_accepted g0 ht (name := "load") (.multi twoScenarios) two_acceptable (rand 0)).1

end Hadar.Props
