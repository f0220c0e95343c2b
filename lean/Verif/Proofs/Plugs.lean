import Verif.Proofs.Pipeline

/-!
# Lemmas on plugs and on building pipelines
-/

namespace Hadar

open Spec

namespace Plug

/-- the list of outputs of the plug exists -/
def Valid (h : Heap) : Plug → Prop
  | free => True
  | restricted _ o => o < h.length

/-- the place of the list of outputs -/
def ref : Plug → Option Ref
  | free => none
  | restricted _ o => some o

theorem valid_of_sees {h : Heap} {p : Plug} {v} (hs : Sees h p v) : p.Valid h := by
  cases hs with
  | free => trivial
  | restricted ho => exact (List.getElem?_eq_some_iff.1 ho).1

theorem sees_of_valid {h : Heap} {p : Plug} (hv : p.Valid h) : ∃ v, Sees h p v := by
  cases p with
  | free => exact ⟨_, .free⟩
  | restricted i o => exact ⟨_, .restricted (List.getElem?_eq_getElem hv)⟩

theorem add_ok (p q : Plug) (h : Heap) : ∃ p' h', p.add q h = (.ok p', h') := by
  cases p <;> cases q <;> exact ⟨_, _, rfl⟩

theorem add_valid {p q p' : Plug} {h h' : Heap} (hp : p.Valid h) (hq : q.Valid h)
    (ha : p.add q h = (.ok p', h')) : p'.Valid h' ∧ h.length ≤ h'.length := by
  cases p with
  | free =>
    cases q with
    | free =>
      simp only [add, deepcopy, PyM.pure, Prod.mk.injEq, Except.ok.injEq] at ha
      obtain ⟨rfl, rfl⟩ := ha
      exact ⟨trivial, le_rfl⟩
    | restricted i o =>
      simp only [add, deepcopy, Prod.mk.injEq, Except.ok.injEq] at ha
      obtain ⟨rfl, rfl⟩ := ha
      simp [Valid]
  | restricted i o =>
    cases q with
    | free =>
      simp only [add, PyM.pure, Prod.mk.injEq, Except.ok.injEq] at ha
      obtain ⟨rfl, rfl⟩ := ha
      exact ⟨hp, le_rfl⟩
    | restricted i' o' =>
      simp only [add, Prod.mk.injEq, Except.ok.injEq] at ha
      obtain ⟨rfl, rfl⟩ := ha
      simpa [Valid] using hq

/-- only the list of the added plug changes -/
theorem add_getD {p q p' : Plug} {h h' : Heap} (ha : p.add q h = (.ok p', h')) (o : Ref)
    (ho : o < h.length) (hne : q.ref ≠ some o) : h'.getD o [] = h.getD o [] := by
  cases p with
  | free =>
    cases q with
    | free =>
      simp only [add, deepcopy, PyM.pure, Prod.mk.injEq, Except.ok.injEq] at ha
      obtain ⟨rfl, rfl⟩ := ha
      rfl
    | restricted i o' =>
      simp only [add, deepcopy, Prod.mk.injEq, Except.ok.injEq] at ha
      obtain ⟨rfl, rfl⟩ := ha
      simp only [List.getD_eq_getElem?_getD, List.getElem?_append_left ho]
  | restricted i o1 =>
    cases q with
    | free =>
      simp only [add, PyM.pure, Prod.mk.injEq, Except.ok.injEq] at ha
      obtain ⟨rfl, rfl⟩ := ha
      rfl
    | restricted i' o' =>
      simp only [add, Prod.mk.injEq, Except.ok.injEq] at ha
      obtain ⟨rfl, rfl⟩ := ha
      have : o' ≠ o := fun e => hne (by rw [ref, e])
      simp only [List.getD_eq_getElem?_getD, List.getElem?_set_ne this]

theorem add_prefix {p q p' : Plug} {h h' : Heap} (ha : p.add q h = (.ok p', h')) (o : Ref)
    (ho : o < h.length) : h.getD o [] <+: h'.getD o [] := by
  by_cases hne : q.ref = some o
  · cases q with
    | free => cases hne
    | restricted i' o' =>
      simp only [ref, Option.some.injEq] at hne
      subst hne
      cases p with
      | free =>
        simp only [add, deepcopy, Prod.mk.injEq, Except.ok.injEq] at ha
        obtain ⟨rfl, rfl⟩ := ha
        simp only [List.getD_eq_getElem?_getD, List.getElem?_append_left ho]
        exact List.prefix_rfl
      | restricted i o1 =>
        simp only [add, Prod.mk.injEq, Except.ok.injEq] at ha
        obtain ⟨rfl, rfl⟩ := ha
        simp only [List.getD_eq_getElem?_getD, List.getElem?_set_self ho, Option.getD_some]
        exact List.prefix_append _ _
  · rw [add_getD ha o ho hne]
    exact List.prefix_rfl

/-- what `a + b` says -/
theorem add_links {p q p' : Plug} {h h' : Heap} {a b} (ha : Sees h p a) (hb : Sees h q b)
    (hadd : p.add q h = (.ok p', h')) : ∃ c, Sees h' p' c ∧ Links a b c := by
  cases ha with
  | free =>
    cases hb with
    | free =>
      simp only [add, deepcopy, PyM.pure, Prod.mk.injEq, Except.ok.injEq] at hadd
      obtain ⟨rfl, rfl⟩ := hadd
      exact ⟨_, .free, .free_free⟩
    | restricted ho =>
      simp only [add, deepcopy, Prod.mk.injEq, Except.ok.injEq] at hadd
      obtain ⟨rfl, rfl⟩ := hadd
      refine ⟨_, .restricted ?_, .free_left _⟩
      rw [List.getElem?_append_right le_rfl]
      simp [ho]
  | restricted ho =>
    cases hb with
    | free =>
      simp only [add, PyM.pure, Prod.mk.injEq, Except.ok.injEq] at hadd
      obtain ⟨rfl, rfl⟩ := hadd
      exact ⟨_, .restricted ho, .free_right _⟩
    | restricted ho' =>
      simp only [add, Prod.mk.injEq, Except.ok.injEq] at hadd
      obtain ⟨rfl, rfl⟩ := hadd
      refine ⟨_, .restricted (List.getElem?_set_self (List.getElem?_eq_some_iff.1 ho').1),
        .both rfl ?_⟩
      · intro x
        simp [List.getD_eq_getElem?_getD, ho, ho']

theorem outputs_of_sees {h : Heap} {p : Plug} {i o} (hs : Sees h p (some (i, o))) :
    p.inputs = i ∧ p.outputs h = o := by
  cases hs with
  | restricted ho => simp [inputs, outputs, List.getD_eq_getElem?_getD, ho]

theorem linkable_iff {p q : Plug} {h : Heap} {a b} (ha : Sees h p a) (hb : Sees h q b) :
    p.linkable h q = true ↔ MayFollow a b := by
  cases ha with
  | free => simp [linkable, MayFollow]
  | restricted ho =>
    cases hb with
    | free => simp [linkable, MayFollow]
    | restricted ho' =>
      simp [linkable, MayFollow, outputs, List.getD_eq_getElem?_getD, ho]

end Plug

/-! ### Running on another heap -/

theorem Stage.call_congr {σ : Type} {g : Rng σ} {h h' : Heap} {st : Stage σ}
    (e : st.plug.outputs h = st.plug.outputs h') : st.call g h = st.call g h' := by
  funext ⟨d, r⟩
  rw [Stage.call_run, Stage.call_run, e]

theorem Spec.Chain.congr {σ : Type} {g : Rng σ} {h h' : Heap} {sl : List (Stage σ)} {t r t' r'}
    (e : ∀ s ∈ sl, s.plug.outputs h = s.plug.outputs h') (hc : Chain g h sl t r t' r') :
    Chain g h' sl t r t' r' := by
  induction hc with
  | nil => exact .nil _ _
  | cons first next ih =>
    refine .cons ?_ (ih fun s hs => e s (List.mem_cons_of_mem _ hs))
    rw [← Stage.call_congr (e _ List.mem_cons_self)]
    exact first

theorem Plug.outputs_add {p q p' s : Plug} {h h' : Heap} (ha : p.add q h = (.ok p', h'))
    (hs : s.Valid h) (hne : s.ref ≠ none → s.ref ≠ q.ref) : s.outputs h = s.outputs h' := by
  cases s with
  | free => rfl
  | restricted i o =>
    exact (Plug.add_getD ha o hs fun e => hne (by simp [ref]) (by rw [e, ref])).symm

theorem Spec.Chain.single {σ : Type} {g : Rng σ} {h : Heap} {st : Stage σ} {t r t' r'}
    (hc : Chain g h [st] t r t' r') :
    (∀ n ∈ st.plug.inputs, has t n) ∧ ∃ r1, st.process (st.plug.outputs h) t r1 = (.ok t', r') := by
  cases hc with
  | cons first next =>
    cases next
    rw [Stage.call_run] at first
    split at first
    · rename_i hcomp
      refine ⟨(Plug.computable_iff _ _).1 hcomp, (reseed g r).2, ?_⟩
      obtain ⟨h1, h2⟩ := Prod.ext_iff.1 first
      simp only at h1 h2
      rw [← h2]
      exact Prod.ext h1 rfl
    · simp at first

theorem Spec.NeverRefused.snoc {σ : Type} {g : Rng σ} {h : Heap} {sl : List (Stage σ)} {st : Stage σ} {t r}
    (h1 : NeverRefused g h sl t r)
    (h2 : ∀ t1 r1, Chain g h sl t r t1 r1 → ∀ n ∈ st.plug.inputs, has t1 n) :
    NeverRefused g h (sl ++ [st]) t r := by
  intro pre st' post e t1 r1 hc
  rcases List.eq_nil_or_concat post with rfl | ⟨post', x, rfl⟩
  · have e' : sl ++ [st] = pre ++ [st'] := e
    obtain ⟨rfl, hx⟩ := List.append_inj' e' rfl
    simp only [List.cons.injEq, and_true] at hx
    subst hx
    exact h2 t1 r1 hc
  · have e' : sl ++ [st] = (pre ++ st' :: post') ++ [x] := by simpa using e
    obtain ⟨rfl, _⟩ := List.append_inj' e' rfl
    exact h1 pre st' post' rfl t1 r1 hc

theorem Spec.NeverRefused.congr {σ : Type} {g : Rng σ} {h h' : Heap} {sl : List (Stage σ)} {t r}
    (e : ∀ s ∈ sl, s.plug.outputs h = s.plug.outputs h') (h1 : NeverRefused g h sl t r) :
    NeverRefused g h' sl t r := by
  intro pre st post es t1 r1 hc
  refine h1 pre st post es t1 r1 (hc.congr ?_)
  intro s hs
  exact (e s (by rw [es]; exact List.mem_append_left _ hs)).symm

theorem sound_single {σ : Type} {g : Rng σ} {h : Heap} {st : Stage σ} (hon : Honest h st) :
    Sound g h st.plug [st] := by
  intro t r hin
  constructor
  · refine NeverRefused.snoc (sl := []) ?_ ?_
    · intro pre st post e
      simp at e
    · intro t1 r1 hc
      cases hc
      exact hin
  · intro t' r' hc
    obtain ⟨_, r1, hp⟩ := hc.single
    unfold Honest at hon
    cases hplug : st.plug with
    | free =>
      rw [hplug] at hon hp
      exact ⟨by simp [Plug.outputs], fun _ => hon _ _ _ _ hp⟩
    | restricted i o =>
      rw [hplug] at hon hp hin
      refine ⟨?_, by simp⟩
      have := hon [] t r1 t' r' (by simp) hin (by simpa [Plug.outputs] using hp)
      simpa [Plug.outputs] using this

theorem sound_snoc {σ : Type} {g : Rng σ} {h h' : Heap} {acc acc' : Plug} {sl : List (Stage σ)}
    {next : Stage σ} (hs : Sound g h acc sl) (hv : ∀ s ∈ sl, s.plug.Valid h)
    (hn : next.plug.Valid h) (hon : Honest h next)
    (hd : ∀ s ∈ sl, s.plug.ref ≠ none → s.plug.ref ≠ next.plug.ref)
    (hl : acc.linkable h next.plug = true) (ha : acc.add next.plug h = (.ok acc', h')) :
    Sound g h' acc' (sl ++ [next]) := by
  have hout : ∀ s ∈ sl, s.plug.outputs h = s.plug.outputs h' := fun s m =>
    Plug.outputs_add ha (hv s m) (hd s m)
  unfold Honest at hon
  cases hnp : next.plug with
  | free =>
    rw [hnp] at hon hl ha hn
    -- the accumulated plug stays
    have hsame : acc' = acc ∧ h' = h := by
      cases acc <;> simp only [Plug.add, Plug.deepcopy, PyM.pure, Prod.mk.injEq, Except.ok.injEq] at ha
      · exact ⟨ha.1.symm, ha.2.symm⟩
      · exact ⟨ha.1.symm, ha.2.symm⟩
    obtain ⟨rfl, rfl⟩ := hsame
    intro t r hin
    obtain ⟨hnr, hend⟩ := hs t r hin
    refine ⟨hnr.snoc (by intro t1 r1 _ n m; rw [hnp] at m; simp [Plug.inputs] at m), ?_⟩
    intro t' r' hc
    obtain ⟨t1, r1, hc1, hc2⟩ := hc.split
    obtain ⟨hout1, hfree1⟩ := hend t1 r1 hc1
    obtain ⟨_, r2, hp⟩ := hc2.single
    rw [hnp] at hp
    have keep := hon _ _ _ _ hp
    exact ⟨fun n m => keep n (hout1 n m), fun hf n m => keep n (hfree1 hf n m)⟩
  | restricted i o =>
    rw [hnp] at hon hl ha hn
    cases acc with
    | free =>
      simp only [Plug.add, Plug.deepcopy, Prod.mk.injEq, Except.ok.injEq] at ha
      obtain ⟨rfl, rfl⟩ := ha
      intro t r hin
      obtain ⟨hnr, hend⟩ := hs t r (by simp [Plug.inputs])
      refine ⟨(hnr.congr hout).snoc ?_, ?_⟩
      · intro t1 r1 hc n m
        rw [hnp] at m
        exact (hend t1 r1 (hc.congr fun s m => (hout s m).symm)).2 rfl n (hin n m)
      · intro t' r' hc
        obtain ⟨t1, r1, hc1, hc2⟩ := hc.split
        obtain ⟨hin2, r2, hp⟩ := hc2.single
        rw [hnp] at hp hin2
        refine ⟨?_, by simp⟩
        have hg : ∀ x : List String, (h ++ [x]).getD o [] = h.getD o [] := fun x => by
          simp only [List.getD_eq_getElem?_getD, List.getElem?_append_left (show o < h.length from hn)]
        have := hon [] t1 r2 t' r' (by simp) hin2 (by
          simpa only [Plug.outputs, hg, List.append_nil] using hp)
        intro n m
        apply this n
        simpa [Plug.outputs, List.getD_eq_getElem?_getD] using m
    | restricted i0 o0 =>
      simp only [Plug.add, Prod.mk.injEq, Except.ok.injEq] at ha
      obtain ⟨rfl, rfl⟩ := ha
      intro t r hin
      obtain ⟨hnr, hend⟩ := hs t r hin
      have hlink : ∀ e ∈ i, e ∈ h.getD o0 [] := by
        simpa [Plug.linkable, Plug.outputs] using hl
      refine ⟨(hnr.congr hout).snoc ?_, ?_⟩
      · intro t1 r1 hc n m
        rw [hnp] at m
        exact (hend t1 r1 (hc.congr fun s m => (hout s m).symm)).1 n (hlink n m)
      · intro t' r' hc
        obtain ⟨t1, r1, hc1, hc2⟩ := hc.split
        obtain ⟨hin2, r2, hp⟩ := hc2.single
        rw [hnp] at hp hin2
        refine ⟨?_, by simp⟩
        obtain ⟨hout1, _⟩ := hend t1 r1 (hc1.congr fun s m => (hout s m).symm)
        have hg : ∀ x, (h.set o x).getD o [] = x := fun x => by
          simp only [List.getD_eq_getElem?_getD, List.getElem?_set_self (show o < h.length from hn),
            Option.getD_some]
        simp only [Plug.outputs, hg] at hp ⊢
        refine hon _ t1 r2 t' r' ?_ hin2 hp
        intro e m
        rw [List.mem_filter] at m
        exact ⟨hout1 e m.1, by simpa using m.2⟩

theorem honest_add {σ : Type} {p q p' : Plug} {h h' : Heap} {st : Stage σ}
    (ha : p.add q h = (.ok p', h')) (hs : st.plug.Valid h)
    (hne : st.plug.ref ≠ none → st.plug.ref ≠ q.ref) (hon : Honest h st) : Honest h' st := by
  unfold Honest at hon ⊢
  cases hp : st.plug with
  | free => rw [hp] at hon; exact hon
  | restricted i o =>
    rw [hp] at hon hs hne
    have e := Plug.outputs_add ha hs hne
    simp only [Plug.outputs] at e
    simp only [← e]
    exact hon

theorem Plug.Valid.mono {h h' : Heap} {p : Plug} (hv : p.Valid h) (hl : h.length ≤ h'.length) :
    p.Valid h' := by
  cases p with
  | free => trivial
  | restricted i o => exact lt_of_lt_of_le hv hl

/-- where a pipeline under construction stands: only free stages yet, or at a restricted stage with all
outputs known to it, or at free stages with no restricted stage to come -/
inductive Phase (h : Heap) : Plug → Plug → List Plug → Prop
  | start {rest} (h1 : ∃ l1 l2 l3, rest = l1 ++ l2 ++ l3 ∧ (∀ p ∈ l1, p = Plug.free) ∧
      (∀ p ∈ l2, p ≠ Plug.free) ∧ (∀ p ∈ l3, p = Plug.free)) : Phase h .free .free rest
  | middle {i o i' o' rest} (he : h.getD o [] = h.getD o' [])
      (h1 : ∃ l2 l3, rest = l2 ++ l3 ∧ (∀ p ∈ l2, p ≠ Plug.free) ∧ (∀ p ∈ l3, p = Plug.free)) :
      Phase h (.restricted i o) (.restricted i' o') rest
  | last {acc rest} (h1 : ∀ p ∈ rest, p = Plug.free) : Phase h acc .free rest

theorem Phase.step {h : Heap} {acc curr next : Plug} {rest : List Plug}
    (hp : Phase h acc curr (next :: rest)) (hv : next.Valid h) (hl : curr.linkable h next = true) :
    acc.linkable h next = true ∧
      ∀ acc' h', acc.add next h = (.ok acc', h') → Phase h' acc' next rest := by
  cases hp with
  | start h1 =>
    refine ⟨by simp [Plug.linkable], ?_⟩
    obtain ⟨l1, l2, l3, e, a1, a2, a3⟩ := h1
    intro acc' h' ha
    cases next with
    | free =>
      simp only [Plug.add, Plug.deepcopy, PyM.pure, Prod.mk.injEq, Except.ok.injEq] at ha
      obtain ⟨rfl, rfl⟩ := ha
      cases l1 with
      | cons x l1 =>
        simp only [List.cons_append, List.cons.injEq] at e
        exact .start ⟨l1, l2, l3, e.2, fun p m => a1 p (List.mem_cons_of_mem _ m), a2, a3⟩
      | nil =>
        cases l2 with
        | cons x l2 =>
          simp only [List.nil_append, List.cons_append, List.cons.injEq] at e
          exact absurd e.1.symm (a2 x List.mem_cons_self)
        | nil =>
          simp only [List.nil_append] at e
          exact .last fun p m => a3 p (by rw [← e]; exact List.mem_cons_of_mem _ m)
    | restricted i o =>
      simp only [Plug.add, Plug.deepcopy, Prod.mk.injEq, Except.ok.injEq] at ha
      obtain ⟨rfl, rfl⟩ := ha
      cases l1 with
      | cons x l1 =>
        simp only [List.cons_append, List.cons.injEq] at e
        have := a1 x List.mem_cons_self
        rw [← e.1] at this
        cases this
      | nil =>
        cases l2 with
        | cons x l2 =>
          simp only [List.nil_append, List.cons_append, List.cons.injEq] at e
          refine .middle ?_ ⟨l2, l3, e.2, fun p m => a2 p (List.mem_cons_of_mem _ m), a3⟩
          simp [List.getD_eq_getElem?_getD, List.getElem?_append_left (show o < h.length from hv)]
        | nil =>
          simp only [List.nil_append] at e
          have := a3 (.restricted i o) (by rw [← e]; exact List.mem_cons_self)
          cases this
  | middle he h1 =>
    obtain ⟨l2, l3, e, a2, a3⟩ := h1
    cases next with
    | free =>
      refine ⟨by simp [Plug.linkable], ?_⟩
      intro acc' h' ha
      cases l2 with
      | cons x l2 =>
        simp only [List.cons_append, List.cons.injEq] at e
        exact absurd e.1.symm (a2 x List.mem_cons_self)
      | nil =>
        simp only [List.nil_append] at e
        exact .last fun p m => a3 p (by rw [← e]; exact List.mem_cons_of_mem _ m)
    | restricted i2 o2 =>
      refine ⟨?_, ?_⟩
      · simp only [Plug.linkable, List.all_eq_true, decide_eq_true_eq] at hl ⊢
        intro x m
        have := hl x m
        simp only [Plug.outputs] at this ⊢
        rw [he]
        exact this
      · intro acc' h' ha
        simp only [Plug.add, Prod.mk.injEq, Except.ok.injEq] at ha
        obtain ⟨rfl, rfl⟩ := ha
        cases l2 with
        | cons x l2 =>
          simp only [List.cons_append, List.cons.injEq] at e
          exact .middle rfl ⟨l2, l3, e.2, fun p m => a2 p (List.mem_cons_of_mem _ m), a3⟩
        | nil =>
          simp only [List.nil_append] at e
          have := a3 (.restricted i2 o2) (by rw [← e]; exact List.mem_cons_self)
          cases this
  | last h1 =>
    have hn := h1 next List.mem_cons_self
    subst hn
    refine ⟨by cases acc <;> simp [Plug.linkable], ?_⟩
    intro acc' h' ha
    exact .last fun p m => h1 p (List.mem_cons_of_mem _ m)

theorem sound_linkAll {σ : Type} {g : Rng σ} {h h' : Heap} {acc acc' curr : Plug}
    {sl rest : List (Stage σ)} (hs : Sound g h acc sl)
    (hacc : acc.Valid h) (hv : ∀ s ∈ sl ++ rest, s.plug.Valid h) (hon : ∀ s ∈ rest, Honest h s)
    (hd : (sl ++ rest).Pairwise fun a b => a.plug.ref ≠ none → a.plug.ref ≠ b.plug.ref)
    (hp : Phase h acc curr (rest.map (·.plug)))
    (hk : linkAll acc curr (rest.map (·.plug)) h = (.ok acc', h')) : Sound g h' acc' (sl ++ rest) := by
  induction rest generalizing h acc curr sl with
  | nil =>
    simp only [List.map_nil, linkAll, PyM.pure, Prod.mk.injEq, Except.ok.injEq] at hk
    obtain ⟨rfl, rfl⟩ := hk
    simpa using hs
  | cons next rest ih =>
    simp only [List.map_cons, linkAll] at hk
    split at hk
    case isFalse => simp at hk
    case isTrue hlink =>
      obtain ⟨acc1, h1, hadd⟩ := Plug.add_ok acc next.plug h
      rw [hadd] at hk
      simp only at hk
      have hnv : next.plug.Valid h := hv next (by simp)
      obtain ⟨hl, hnext⟩ := Phase.step hp hnv hlink
      rw [List.pairwise_append] at hd
      obtain ⟨hd1, hd2, hd3⟩ := hd
      rw [List.pairwise_cons] at hd2
      obtain ⟨hva, hlen⟩ := Plug.add_valid hacc hnv hadd
      have hsnoc := sound_snoc hs (fun s m => hv s (List.mem_append_left _ m)) hnv
        (hon next List.mem_cons_self) (fun s m => hd3 s m next List.mem_cons_self) hl hadd
      have := ih (sl := sl ++ [next]) hsnoc hva
        (fun s m => (hv s (by simpa using m)).mono hlen)
        (fun s m => honest_add hadd (hv s (by simp [m])) (fun hr he => by
          have := hd2.1 s m
          exact this (by rw [← he]; exact hr) he.symm) (hon s (List.mem_cons_of_mem _ m)))
        (by
          rw [List.append_assoc, List.pairwise_append]
          exact ⟨hd1, by simpa using hd2, by simpa using hd3⟩)
        (hnext _ _ hadd) hk
      simpa using this

end Hadar
