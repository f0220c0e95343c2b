import Verif.Spec.Pipeline
import Verif.Proofs.Base

/-!
# Lemmas on the workflow pipeline
-/

namespace Hadar

open Spec

section unique
variable {α : Type} [DecidableEq α]

theorem mem_unique (x : α) (l : List α) : x ∈ unique l ↔ x ∈ l := by
  induction l with
  | nil => simp [unique]
  | cons a l ih =>
    simp only [unique, List.mem_cons, List.mem_filter, ih, decide_eq_true_eq]
    by_cases h : x = a <;> simp [h]

theorem nodup_unique (l : List α) : (unique l).Nodup := by
  induction l with
  | nil => simp [unique]
  | cons a l ih =>
    simp only [unique, List.nodup_cons, List.mem_filter]
    exact ⟨by simp, ih.filter _⟩

theorem unique_of_nodup {l : List α} (h : l.Nodup) : unique l = l := by
  induction l with
  | nil => rfl
  | cons a l ih =>
    rw [List.nodup_cons] at h
    simp only [unique, ih h.2]
    congr 1
    rw [List.filter_eq_self]
    intro x hx
    simp only [decide_eq_true_eq]
    rintro rfl
    exact h.1 hx

theorem unique_replicate {a : α} {n : ℕ} (hn : n ≠ 0) : unique (List.replicate n a) = [a] := by
  induction n with
  | zero => exact absurd rfl hn
  | succ n ih =>
    by_cases h0 : n = 0
    · subst h0; rfl
    · simp [List.replicate_succ, unique, ih h0]

theorem unique_append (l m : List α) :
    unique (l ++ m) = unique l ++ (unique m).filter (fun x => decide (x ∉ l)) := by
  induction l with
  | nil => simp [unique]
  | cons a l ih =>
    simp only [List.cons_append, unique, ih, List.filter_append, List.filter_filter,
      List.cons.injEq, true_and]
    congr 1
    apply List.filter_congr
    intro x hx
    simp

end unique

theorem mem_names (t : Timeline) (n : String) : n ∈ t.names ↔ has t n := by
  rw [Timeline.names, mem_unique]
  constructor
  · intro h
    obtain ⟨⟨⟨scn, n'⟩, v⟩, hc, rfl⟩ := List.mem_map.1 h
    exact ⟨scn, v, hc⟩
  · rintro ⟨scn, v, h⟩
    exact List.mem_map.2 ⟨_, h, rfl⟩

theorem mem_scenarios (t : Timeline) (s : Cell) : s ∈ t.scenarios ↔ ∃ n v, ((s, n), v) ∈ t.cols := by
  rw [Timeline.scenarios, mem_unique]
  constructor
  · intro h
    obtain ⟨⟨⟨scn, n'⟩, v⟩, hc, rfl⟩ := List.mem_map.1 h
    exact ⟨n', v, hc⟩
  · rintro ⟨scn, v, h⟩
    exact List.mem_map.2 ⟨_, h, rfl⟩

theorem forall₂_map_self {α β : Type} (f : α → β) (l : List α) :
    List.Forall₂ (fun a b => b = f a) l (l.map f) := by
  induction l with
  | nil => exact .nil
  | cons a l ih => exact .cons rfl ih

theorem eq_map_of_forall₂ {α β : Type} {f : α → β} {l : List α} {m : List β}
    (h : List.Forall₂ (fun a b => b = f a) l m) : m = l.map f := by
  induction h with
  | nil => rfl
  | cons h _ ih => simp [h, ih]

theorem labelled_timeline (d : Data) : Labelled d d.timeline := by
  cases d with
  | plain f => exact .plain rfl (forall₂_map_self _ f.cols)
  | multi t => exact .multi t

theorem Spec.Labelled.eq {d : Data} {t : Timeline} (h : Labelled d t) : t = d.timeline := by
  cases h with
  | plain hi hc =>
    cases t
    simp only at hi hc
    subst hi
    have e := eq_map_of_forall₂ (f := fun a : String × List Val => ((Cell.num 0, a.1), a.2)) hc
    subst e
    rfl
  | multi t => rfl

theorem has_timeline (d : Data) (n : String) : has d.timeline n ↔ hasColumn d n := by
  cases d with
  | plain f =>
    constructor
    · rintro ⟨scn, v, h⟩
      obtain ⟨⟨n', v'⟩, hc, e⟩ := List.mem_map.1 h
      simp only [Prod.mk.injEq] at e
      obtain ⟨⟨_, rfl⟩, rfl⟩ := e
      exact ⟨v', hc⟩
    · rintro ⟨v, h⟩
      exact ⟨.num 0, v, List.mem_map.2 ⟨_, h, rfl⟩⟩
  | multi t => rfl

theorem Plug.computable_iff (p : Plug) (t : Timeline) :
    p.computable t.names = true ↔ ∀ n ∈ p.inputs, has t n := by
  simp [Plug.computable, List.all_eq_true, mem_names]

/-- a stage on a frame -/
theorem Stage.call_run {σ : Type} (g : Rng σ) (h : Heap) (st : Stage σ) (d : Data) (r : Rand σ) :
    st.call g h (d, r) =
      if st.plug.computable d.timeline.names then
        ((st.process (st.plug.outputs h) d.timeline (reseed g r).2).1,
          (.multi d.timeline, (st.process (st.plug.outputs h) d.timeline (reseed g r).2).2))
      else (.error .valueError, (.multi d.timeline, (reseed g r).2)) := by
  unfold Stage.call
  simp only [PyM.bind_run, standardize, onRand, reseed]
  split <;> rfl

theorem Stage.call_frame {σ : Type} (g : Rng σ) (h : Heap) (st : Stage σ) (d : Data) (r : Rand σ) :
    (st.call g h (d, r)).2.1 = .multi d.timeline := by
  rw [Stage.call_run]
  split <;> rfl

/-- a pipeline on a frame -/
theorem callPipeline_run {σ : Type} (g : Rng σ) (h : Heap) (p : Plug) (sl : List (Stage σ)) (d : Data)
    (r : Rand σ) :
    callPipeline g h p sl (d, r) =
      if p.computable d.timeline.names then
        ((callStages g h sl d.timeline r).1, (.multi d.timeline, (callStages g h sl d.timeline r).2))
      else (.error .valueError, (.multi d.timeline, r)) := by
  unfold callPipeline
  simp only [PyM.bind_run, standardize, onRand]
  split <;> rfl

theorem callStages_ok {σ : Type} (g : Rng σ) (h : Heap) (sl : List (Stage σ)) (t : Timeline) (r : Rand σ)
    (t' : Timeline) (r' : Rand σ) :
    callStages g h sl t r = (.ok t', r') ↔ Chain g h sl t r t' r' := by
  induction sl generalizing t r with
  | nil =>
    constructor
    · intro e
      simp only [callStages, PyM.pure, Prod.mk.injEq, Except.ok.injEq] at e
      obtain ⟨rfl, rfl⟩ := e
      exact .nil _ _
    · intro e
      cases e
      rfl
  | cons st rest ih =>
    rcases hc : st.call g h (.multi t, r) with ⟨e | t1, s⟩
    · constructor
      · intro e'
        simp [callStages, hc] at e'
      · intro e'
        cases e' with
        | cons first next => rw [hc] at first; simp at first
    · constructor
      · intro e'
        simp only [callStages, hc] at e'
        exact .cons hc ((ih _ _).1 e')
      · intro e'
        cases e' with
        | cons first next =>
          rw [hc] at first
          simp only [Prod.mk.injEq, Except.ok.injEq] at first
          obtain ⟨rfl, rfl⟩ := first
          simp only [callStages, hc]
          exact (ih _ _).2 next

theorem callStages_error {σ : Type} (g : Rng σ) (h : Heap) (sl : List (Stage σ)) (t : Timeline)
    (r : Rand σ) (e : PyErr) :
    (callStages g h sl t r).1 = .error e ↔
      ∃ pre st post t1 r1, sl = pre ++ st :: post ∧ Chain g h pre t r t1 r1 ∧
        (st.call g h (.multi t1, r1)).1 = .error e := by
  induction sl generalizing t r with
  | nil => simp [callStages, PyM.pure]
  | cons st rest ih =>
    rcases hc : st.call g h (.multi t, r) with ⟨e' | t1, s⟩
    · constructor
      · intro e1
        simp only [callStages, hc] at e1
        refine ⟨[], st, rest, t, r, rfl, .nil _ _, ?_⟩
        rw [hc]; exact e1
      · rintro ⟨pre, st', post, t1, r1, es, hch, he⟩
        cases pre with
        | nil =>
          simp only [List.nil_append, List.cons.injEq] at es
          obtain ⟨rfl, rfl⟩ := es
          cases hch
          rw [hc] at he
          simpa only [callStages, hc] using he
        | cons a pre =>
          simp only [List.cons_append, List.cons.injEq] at es
          obtain ⟨rfl, rfl⟩ := es
          cases hch with
          | cons first next => rw [hc] at first; simp at first
    · simp only [callStages, hc]
      rw [ih]
      constructor
      · rintro ⟨pre, st', post, t2, r2, rfl, hch, he⟩
        exact ⟨st :: pre, st', post, t2, r2, rfl, .cons hc hch, he⟩
      · rintro ⟨pre, st', post, t2, r2, es, hch, he⟩
        cases pre with
        | nil =>
          simp only [List.nil_append, List.cons.injEq] at es
          obtain ⟨rfl, rfl⟩ := es
          cases hch
          rw [hc] at he
          simp at he
        | cons a pre =>
          simp only [List.cons_append, List.cons.injEq] at es
          obtain ⟨rfl, rfl⟩ := es
          cases hch with
          | cons first next =>
            rw [hc] at first
            simp only [Prod.mk.injEq, Except.ok.injEq] at first
            obtain ⟨rfl, rfl⟩ := first
            exact ⟨pre, st', post, t2, r2, rfl, next, he⟩

theorem Spec.Chain.append {σ : Type} {g : Rng σ} {h : Heap} {a b : List (Stage σ)} {t r t1 r1 t2 r2}
    (h1 : Chain g h a t r t1 r1) (h2 : Chain g h b t1 r1 t2 r2) : Chain g h (a ++ b) t r t2 r2 := by
  induction h1 with
  | nil => exact h2
  | cons first _ ih => exact .cons first (ih h2)

theorem Spec.Chain.split {σ : Type} {g : Rng σ} {h : Heap} {a b : List (Stage σ)} {t r t2 r2}
    (hc : Chain g h (a ++ b) t r t2 r2) : ∃ t1 r1, Chain g h a t r t1 r1 ∧ Chain g h b t1 r1 t2 r2 := by
  induction a generalizing t r with
  | nil => exact ⟨t, r, .nil _ _, hc⟩
  | cons s a ih =>
    cases hc with
    | cons first next =>
      obtain ⟨t1, r1, h1, h2⟩ := ih next
      exact ⟨t1, r1, .cons first h1, h2⟩

end Hadar
