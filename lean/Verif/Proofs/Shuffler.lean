import Verif.Spec.Shuffler
import Verif.Proofs.Pipeline
import Verif.Proofs.Pool
import Verif.Proofs.Base

/-!
# Lemmas about the shuffler
-/

namespace Hadar

open Spec

variable {σ : Type}

theorem gather_eq {d : Rows} {ix : List ℤ} (h : ∀ z ∈ ix, 0 ≤ z ∧ z < d.length) :
    gather d ix = .ok (ix.map fun z => d.getD z.toNat []) := by
  induction ix with
  | nil => rfl
  | cons z ix ih =>
    obtain ⟨h0, h1⟩ := h z List.mem_cons_self
    have ih := ih fun z m => h z (List.mem_cons_of_mem _ m)
    unfold gather at ih ⊢
    rw [List.mapM_cons, ih, if_pos ⟨by omega, h1⟩, if_neg (by omega)]
    rfl

/-- whatever the indexes, rows that are returned are rows of the data, and an index out of range raises -/
theorem gather_mem (d : Rows) (ix : List ℤ) :
    (∃ rows, gather d ix = .ok rows ∧ rows.length = ix.length ∧ (∀ row ∈ rows, row ∈ d) ∧
      ∀ z ∈ ix, -(d.length : ℤ) ≤ z ∧ z < d.length) ∨
    gather d ix = .error .indexError ∧ ∃ z ∈ ix, ¬ (-(d.length : ℤ) ≤ z ∧ z < d.length) := by
  induction ix with
  | nil => exact .inl ⟨[], rfl, rfl, by simp, by simp⟩
  | cons z ix ih =>
    unfold gather at ih ⊢
    rw [List.mapM_cons]
    by_cases hz : -(d.length : ℤ) ≤ z ∧ z < d.length
    · rw [if_pos hz]
      rcases ih with ⟨rows, h, hl, hm, hr⟩ | ⟨h, z', hz', hn⟩
      · refine .inl ⟨_ :: rows, by rw [h]; rfl, by simp [hl], ?_, by simpa using ⟨hz, hr⟩⟩
        intro row hrow
        rcases List.mem_cons.mp hrow with rfl | hrow
        · have hlt : (if z < 0 then z + d.length else z).toNat < d.length := by split_ifs <;> omega
          rw [List.getD_eq_getElem?_getD, List.getElem?_eq_getElem hlt]
          exact List.getElem_mem hlt
        · exact hm row hrow
      · exact .inr ⟨by rw [h]; rfl, z', List.mem_cons_of_mem _ hz', hn⟩
    · rw [if_neg hz]
      exact .inr ⟨rfl, z, List.mem_cons_self, hz⟩

theorem picked_of_range {d : Rows} {ix : List ℤ} (h : ∀ z ∈ ix, 0 ≤ z ∧ z < d.length) :
    Picked d ix (ix.map fun z => d.getD z.toNat []) := by
  induction ix with
  | nil => exact .nil
  | cons z ix ih =>
    obtain ⟨h0, h1⟩ := h z List.mem_cons_self
    refine .cons ⟨z.toNat, (Int.toNat_of_nonneg h0).symm, ?_⟩ (ih fun z m => h z (List.mem_cons_of_mem _ m))
    have : z.toNat < d.length := by omega
    simp [List.getD_eq_getElem?_getD, List.getElem?_eq_getElem this]

theorem Spec.Picked.length {d : Rows} {ix : List ℤ} {rows : Rows} (h : Picked d ix rows) :
    rows.length = ix.length := (List.Forall₂.length_eq h).symm

theorem Spec.Picked.mem {d : Rows} {ix : List ℤ} {rows : Rows} (h : Picked d ix rows) :
    ∀ row ∈ rows, row ∈ d := by
  unfold Picked at h
  induction h with
  | nil => simp
  | cons h _ ih =>
    intro row hr
    rcases List.mem_cons.1 hr with rfl | hr
    · obtain ⟨k, _, hk⟩ := h
      exact List.mem_of_getElem? hk
    · exact ih row hr

/-- sampling, once data is there -/
theorem sample_cached (g : Rng σ) (w : PipeWorld σ) (sampler : Sampler σ) (nb : ℕ) (d : Rows) (o : Origin)
    (r : Rand σ) :
    Source.sample g w sampler nb (⟨some d, o⟩, r) =
      match sampler 0 d.length nb r with
      | (.error e, r') => (.error e, (⟨some d, o⟩, r'))
      | (.ok ix, r') => (gather d ix, (⟨some d, o⟩, r')) := by
  simp only [Source.sample]
  rcases sampler 0 d.length nb r with ⟨e | ix, r'⟩ <;> rfl

/-- sampling, when data is not there -/
theorem sample_fresh (g : Rng σ) (w : PipeWorld σ) (sampler : Sampler σ) (nb : ℕ) (o : Origin) (r : Rand σ) :
    Source.sample g w sampler nb (⟨none, o⟩, r) =
      match o.compute g w r with
      | (.error e, r1) => (.error e, (⟨none, o⟩, r1))
      | (.ok d, r1) => Source.sample g w sampler nb (⟨some d, o⟩, r1) := by
  simp only [Source.sample]
  rcases o.compute g w r with ⟨e | d, r1⟩
  · rfl
  · rfl

theorem sample_ok {g : Rng σ} {w : PipeWorld σ} {sampler : Sampler σ} {nb : ℕ} {d : Rows} {o : Origin}
    {r : Rand σ} {rows : Rows} {s} (hs : DrawsInRange sampler)
    (h : Source.sample g w sampler nb (⟨some d, o⟩, r) = (.ok rows, s)) :
    s.1 = ⟨some d, o⟩ ∧ ∃ ix, sampler 0 d.length nb r = (.ok ix, s.2) ∧ ix.length = nb ∧ Picked d ix rows := by
  rw [sample_cached] at h
  rcases hk : sampler 0 d.length nb r with ⟨e | ix, r'⟩
  · rw [hk] at h; simp at h
  rw [hk] at h
  simp only [Prod.mk.injEq] at h
  obtain ⟨h, rfl⟩ := h
  obtain ⟨hl, hr⟩ := hs d.length nb r ix r' hk
  rw [gather_eq hr] at h
  simp only [Except.ok.injEq] at h
  subst h
  exact ⟨rfl, ix, rfl, hl, picked_of_range hr⟩

theorem toShufflerRows_ok {t : Timeline} {rows : Rows} (h : toShufflerRows t = .ok rows)
    (hb : has t "" → ∃ n, n ≠ "" ∧ n ≠ "to_shuffler" ∧ has t n) :
    has t "to_shuffler" ∧ rows = (t.cols.filter fun c => c.1.2 = "to_shuffler").map (·.2) := by
  unfold toShufflerRows at h
  split at h
  case isFalse => simp at h
  case isTrue hin =>
    refine ⟨(mem_names t _).1 hin, ?_⟩
    simp only [Except.ok.injEq] at h
    subst h
    congr 1
    split
    · apply List.filter_congr
      intro c hc
      have : c.1.2 ∈ t.names := (mem_names t _).2 ⟨c.1.1, c.2, hc⟩
      simp [List.mem_filter, this]
    · rename_i hany
      symm
      rw [List.filter_eq_self]
      intro c hc
      simp only [List.any_eq_true, List.mem_filter, decide_eq_true_eq, not_exists, not_and, mem_names,
        and_imp, not_not] at hany
      simp only [decide_eq_true_eq]
      have hh : has t c.1.2 := ⟨c.1.1, c.2, hc⟩
      by_contra hne
      have he := hany _ hh hne
      rw [he] at hh
      obtain ⟨n, h1, h2, h3⟩ := hb hh
      exact h1 (hany n h3 h2)

theorem compute_ok {g : Rng σ} {w : PipeWorld σ} {o : Origin} {r r' : Rand σ} {d : Rows}
    (h : o.compute g w r = (.ok d, r')) (hb : NoBlank g w o) : Own g w r o d := by
  cases o with
  | raw d' =>
    simp only [Origin.compute, PyM.pure, Prod.mk.injEq, Except.ok.injEq] at h
    obtain ⟨rfl, rfl⟩ := h
    exact .raw _
  | pipe df p =>
    simp only [Origin.compute] at h
    rcases hk : w.callPipe g p (.multi df, r) with ⟨e | t, s⟩
    · rw [hk] at h; simp at h
    rw [hk] at h
    simp only [Prod.mk.injEq] at h
    obtain ⟨h1, h2⟩ := toShufflerRows_ok h.1 (hb r t s hk)
    subst h2
    exact .pipe hk h1 (forall₂_map_self _ _)

/-- what a registration puts in the shuffler -/
def fresh : Origin → Source
  | .raw d => ⟨some d, .raw d⟩
  | .pipe df p => ⟨none, .pipe df p⟩

theorem fresh_origin (o : Origin) : (fresh o).origin = o := by cases o <;> rfl

/-- sampling what a registration put in the shuffler: rows of its own data -/
theorem sample_fresh_ok {g : Rng σ} {w : PipeWorld σ} {sampler : Sampler σ} {nb : ℕ} {o : Origin}
    {r : Rand σ} {rows : Rows} {s} (hs : DrawsInRange sampler) (hb : NoBlank g w o)
    (h : Source.sample g w sampler nb (fresh o, r) = (.ok rows, s)) :
    ∃ own ix, Own g w r o own ∧ ix.length = nb ∧ Picked own ix rows := by
  cases o with
  | raw d =>
    obtain ⟨_, ix, _, hl, hp⟩ := sample_ok hs h
    exact ⟨d, ix, .raw _, hl, hp⟩
  | pipe df p =>
    simp only [fresh] at h
    rw [sample_fresh] at h
    rcases hk : (Origin.pipe df p).compute g w r with ⟨e | d, r1⟩
    · rw [hk] at h; simp at h
    rw [hk] at h
    simp only at h
    obtain ⟨_, ix, _, hl, hp⟩ := sample_ok hs h
    exact ⟨d, ix, compute_ok hk hb, hl, hp⟩

theorem check_ok {w : PipeWorld σ} {p : ℕ} {d : Data} {name : String} :
    Shuffler.check w p d.timeline = .ok () ↔ Acceptable w (.pipeline name d p) := by
  simp only [Shuffler.check, Acceptable]
  rcases hp : w.pipes[p]? with _ | ⟨plug, l⟩
  · simp
  · have hc := Plug.computable_iff plug d.timeline
    simp only [has_timeline] at hc
    simp only [Option.some.injEq, Prod.mk.injEq]
    by_cases h1 : plug.computable d.timeline.names = true
    · rw [if_pos h1]
      by_cases h2 : "to_shuffler" ∈ plug.outputs w.outs
      · rw [if_pos h2]
        simp only [true_iff]
        exact ⟨plug, l, ⟨rfl, rfl⟩, hc.1 h1, h2⟩
      · rw [if_neg h2]
        simp only [reduceCtorEq, false_iff]
        rintro ⟨plug', l', ⟨rfl, rfl⟩, _, h3⟩
        exact h2 h3
    · rw [if_neg h1]
      simp only [reduceCtorEq, false_iff]
      rintro ⟨plug', l', ⟨rfl, rfl⟩, h3, _⟩
      exact h1 (hc.2 h3)

theorem check_error {w : PipeWorld σ} {p : ℕ} {t : Timeline} {e : PyErr}
    (h : Shuffler.check w p t = .error e) : e = .valueError := by
  unfold Shuffler.check at h
  split at h
  · simpa using h.symm
  · split at h
    · split at h
      · simp at h
      · simpa using h.symm
    · simpa using h.symm

theorem registerAll_get (regs : List (PipeWorld σ × Registration)) (s : Shuffler) (name : String)
    (src : Source) :
    Dict.get? (registerAll regs s) name = some src ↔
      (∃ o, Last regs name o ∧ src = fresh o) ∨
      ((∀ x ∈ regs, x.2.name = name → ¬ Acceptable x.1 x.2) ∧ Dict.get? s name = some src) := by
  induction regs generalizing s with
  | nil =>
    simp only [registerAll, Last, List.not_mem_nil, false_imp_iff, implies_true, true_and]
    constructor
    · exact fun h => .inr h
    · rintro (⟨o, ⟨pre, w, reg, post, e, _⟩, _⟩ | h)
      · simp at e
      · exact h
  | cons x regs ih =>
    obtain ⟨w, reg⟩ := x
    -- registrations of the tail are registrations of the whole
    have hlast : ∀ o, Last ((w, reg) :: regs) name o ↔ Last regs name o ∨
        (reg.name = name ∧ Acceptable w reg ∧ Registers reg o ∧
          ∀ x ∈ regs, x.2.name = name → ¬ Acceptable x.1 x.2) := by
      intro o
      constructor
      · rintro ⟨pre, w', reg', post, e, h1, h2, h3, h4⟩
        cases pre with
        | nil =>
          simp only [List.nil_append, List.cons.injEq, Prod.mk.injEq] at e
          obtain ⟨⟨rfl, rfl⟩, rfl⟩ := e
          exact .inr ⟨h1, h2, h3, h4⟩
        | cons y pre =>
          simp only [List.cons_append, List.cons.injEq] at e
          exact .inl ⟨pre, w', reg', post, e.2, h1, h2, h3, h4⟩
      · rintro (⟨pre, w', reg', post, e, h1, h2, h3, h4⟩ | ⟨h1, h2, h3, h4⟩)
        · exact ⟨(w, reg) :: pre, w', reg', post, by rw [e]; rfl, h1, h2, h3, h4⟩
        · exact ⟨[], w, reg, regs, rfl, h1, h2, h3, h4⟩
    have hall : (∀ x ∈ (w, reg) :: regs, x.2.name = name → ¬ Acceptable x.1 x.2) ↔
        (reg.name = name → ¬ Acceptable w reg) ∧ ∀ x ∈ regs, x.2.name = name → ¬ Acceptable x.1 x.2 := by
      simp
    -- what the first registration does
    have hstep : ∀ s1, registerAll ((w, reg) :: regs) s = registerAll regs s1 →
        (Acceptable w reg → ∃ o, Registers reg o ∧ (∀ o', Registers reg o' → o' = o) ∧ s1 = s.set reg.name (fresh o)) →
        (¬ Acceptable w reg → s1 = s) →
        (Dict.get? (registerAll ((w, reg) :: regs) s) name = some src ↔
        (∃ o, Last ((w, reg) :: regs) name o ∧ src = fresh o) ∨
        ((∀ x ∈ (w, reg) :: regs, x.2.name = name → ¬ Acceptable x.1 x.2) ∧ Dict.get? s name = some src)) := by
      intro s1 e1 e2 e3
      rw [e1, ih, hall]
      simp only [hlast]
      by_cases hacc : Acceptable w reg
      · obtain ⟨o, ho, huniq, hs1⟩ := e2 hacc
        subst hs1
        rw [Dict.get?_set]
        by_cases hn : reg.name = name
        · simp only [hn, if_true, hacc, not_true_eq_false, imp_false, true_and, false_and, or_false]
          constructor
          · rintro (⟨o', h1, h2⟩ | ⟨h1, h2⟩)
            · exact ⟨o', .inl h1, h2⟩
            · exact ⟨o, .inr ⟨ho, h1⟩, by simpa using h2.symm⟩
          · rintro ⟨o', h1 | ⟨h1, h1'⟩, h2⟩
            · exact .inl ⟨o', h1, h2⟩
            · refine .inr ⟨h1', ?_⟩
              rw [h2, huniq o' h1]
        · simp [hn]
      · rw [e3 hacc]
        simp [hacc]
    cases reg with
    | data n rows =>
      refine hstep (s.set n (fresh (.raw rows))) rfl (fun _ => ⟨_, .data _ _, ?_, rfl⟩)
        (fun h => absurd trivial h)
      intro o' h
      cases h
      rfl
    | pipeline n d p =>
      by_cases hacc : Acceptable w (.pipeline n d p)
      · refine hstep (s.set n (fresh (.pipe d.timeline p))) ?_
          (fun _ => ⟨_, .pipeline (labelled_timeline d), ?_, rfl⟩) (fun h => absurd hacc h)
        · simp only [registerAll, Shuffler.addPipeline, check_ok.2 hacc, fresh]
        · intro o' h
          cases h with
          | pipeline h => rw [h.eq]
      · refine hstep s ?_ (fun h => absurd h hacc) (fun _ => rfl)
        simp only [registerAll, Shuffler.addPipeline]
        have : Shuffler.check w p d.timeline ≠ .ok () := fun h => hacc (check_ok.1 h)
        rcases hk : Shuffler.check w p d.timeline with e | u
        · rfl
        · exact absurd hk this

theorem registerAll_nodup (regs : List (PipeWorld σ × Registration)) (s : Shuffler)
    (h : (Dict.keys s).Nodup) : (Dict.keys (registerAll regs s)).Nodup := by
  induction regs generalizing s with
  | nil => exact h
  | cons x regs ih =>
    obtain ⟨w, reg⟩ := x
    cases reg with
    | data n rows => exact ih _ (Dict.nodup_set _ _ h)
    | pipeline n d p =>
      simp only [registerAll, Shuffler.addPipeline]
      apply ih
      split
      · exact h
      · exact Dict.nodup_set _ _ h

theorem mapM_ok_forall₂ {α β : Type} {f : α → Except PyErr β} {l : List α} {l' : List β}
    (h : l.mapM f = .ok l') : List.Forall₂ (fun a b => f a = .ok b) l l' := by
  induction l generalizing l' with
  | nil =>
    simp only [List.mapM_nil, pure, Except.pure, Except.ok.injEq] at h
    subst h
    exact .nil
  | cons a l ih =>
    rw [List.mapM_cons] at h
    cases hf : f a with
    | error e => rw [hf] at h; simp [bind, Except.bind] at h
    | ok b =>
      rw [hf] at h
      cases hm : l.mapM f with
      | error e => rw [hm] at h; simp [bind, Except.bind] at h
      | ok m =>
        rw [hm] at h
        simp only [bind, Except.bind, pure, Except.pure, Except.ok.injEq] at h
        subst h
        exact .cons hf (ih hm)

end Hadar
