import Verif.Props.Fault

/-!
# Properties of building pipelines (C48, C55), cases and counterexamples for C47 - C56, C66
-/

namespace Hadar.Props

open Hadar Spec

variable {σ : Type}

/-! ### C48: an accepted pipeline never lacks a column midway -/

theorem ref_apart {a b : Plug} (h : Apart a b) : a.ref ≠ none → a.ref ≠ b.ref := by
  cases a <;> cases b <;> simp_all [Apart, Plug.ref]

/-- The full claim is for every list of stages accepted by the constructor. It is proved when the stages keep
their word, have lists of outputs of their own, and no stage with needs comes after a stage without that
comes itself after a stage with needs: then, for data with the columns the pipeline requires, no stage is
refused its input, and at the end the columns announced by the pipeline are there. -/
theorem C48_partial (g : Rng σ) {w w' : PipeWorld σ} {l p : ℕ} (hb : PipeWorld.newPipeline l w = (.ok p, w'))
    (hv : ∀ s ∈ w.stagesOf l, ∃ v, Sees w.outs s.plug v)
    (hon : ∀ s ∈ w.stagesOf l, Honest w.outs s)
    (hd : ((w.stagesOf l).map (·.plug)).Pairwise Apart)
    (hpat : ∃ l1 l2 l3, (w.stagesOf l).map (·.plug) = l1 ++ l2 ++ l3 ∧ (∀ q ∈ l1, q = Plug.free) ∧
      (∀ q ∈ l2, q ≠ Plug.free) ∧ (∀ q ∈ l3, q = Plug.free)) :
    ∃ plug, w'.pipes[p]? = some (plug, l) ∧ w'.stagesOf l = w.stagesOf l ∧
      ∀ d t, Labelled d t → (∀ n ∈ plug.inputs, hasColumn d n) → ∀ r,
        NeverRefused g w'.outs (w'.stagesOf l) t r ∧
        ∀ t' r', Chain g w'.outs (w'.stagesOf l) t r t' r' → ∀ n ∈ plug.outputs w'.outs, has t' n := by
  unfold PipeWorld.newPipeline at hb
  rcases hsl : w.stagesOf l with _ | ⟨s0, rest⟩
  · rw [hsl] at hb
    simp at hb
  rw [hsl] at hb hv hon hd hpat
  simp only [List.map_cons] at hb hpat
  rcases hk : linkAll s0.plug s0.plug (rest.map (·.plug)) w.outs with ⟨e | plug, h'⟩
  · rw [hk] at hb
    simp at hb
  rw [hk] at hb
  simp only [Prod.mk.injEq, Except.ok.injEq] at hb
  obtain ⟨rfl, rfl⟩ := hb
  have hst : PipeWorld.stagesOf { w with outs := h', pipes := w.pipes ++ [(plug, l)] } l = s0 :: rest := hsl
  refine ⟨plug, by simp, hst, ?_⟩
  have hval : ∀ s ∈ s0 :: rest, s.plug.Valid w.outs := fun s m => by
    obtain ⟨v, hs⟩ := hv s m
    exact Plug.valid_of_sees hs
  have hphase : Phase w.outs s0.plug s0.plug (rest.map (·.plug)) := by
    obtain ⟨l1, l2, l3, e, a1, a2, a3⟩ := hpat
    cases l1 with
    | cons x l1 =>
      simp only [List.cons_append, List.cons.injEq] at e
      have hx : s0.plug = .free := e.1.trans (a1 x List.mem_cons_self)
      rw [hx]
      exact .start ⟨l1, l2, l3, e.2, fun q m => a1 q (List.mem_cons_of_mem _ m), a2, a3⟩
    | nil =>
      cases l2 with
      | cons x l2 =>
        simp only [List.nil_append, List.cons_append, List.cons.injEq] at e
        have hx := a2 x List.mem_cons_self
        rw [← e.1] at hx
        cases hp : s0.plug with
        | free => exact absurd hp hx
        | restricted i o =>
          exact .middle rfl ⟨l2, l3, e.2, fun q m => a2 q (List.mem_cons_of_mem _ m), a3⟩
      | nil =>
        simp only [List.nil_append] at e
        cases l3 with
        | nil => simp at e
        | cons x l3 =>
          simp only [List.cons.injEq] at e
          have hx : s0.plug = .free := e.1.trans (a3 x List.mem_cons_self)
          rw [hx]
          exact .last fun q m => a3 q (List.mem_cons_of_mem _ (e.2 ▸ m))
  have hsound : Sound g h' plug ([s0] ++ rest) :=
    sound_linkAll (sound_single (hon s0 List.mem_cons_self)) (hval s0 List.mem_cons_self)
      (by simpa using hval) (fun s m => hon s (List.mem_cons_of_mem _ m))
      (by
        rw [List.pairwise_map] at hd
        exact hd.imp ref_apart) hphase hk
  intro d t hlab hin r
  have e' := hlab.eq
  subst e'
  rw [hst]
  obtain ⟨h1, h2⟩ := hsound d.timeline r (fun n m => (has_timeline d n).2 (hin n m))
  exact ⟨h1, fun t' r' hc => (h2 t' r' hc).1⟩

/-- a pipeline of the session, with its stages, that keeps its word -/
def Trusty (g : Rng σ) (w : PipeWorld σ) (p : ℕ) (sl : List (Stage σ)) : Prop :=
  ∃ plug l v, w.pipes[p]? = some (plug, l) ∧ l < w.lists.length ∧ w.stagesOf l = sl ∧
    Sees w.outs plug v ∧ (∀ s ∈ sl, ∃ v, Sees w.outs s.plug v) ∧ Sound g w.outs plug sl

/-- Adding a stage with `+` keeps it so that no stage is refused its input, wherever stages without needs
stand: the stage must keep its word and have a list of outputs of its own. -/
theorem C48_add (g : Rng σ) {w w' : PipeWorld σ} {p s q : ℕ} {sl : List (Stage σ)} {st : Stage σ}
    (ht : Trusty g w p sl) (hs : w.stages[s]? = some st) (hsee : ∃ v, Sees w.outs st.plug v)
    (hon : Honest w.outs st) (hd : ∀ x ∈ sl, Apart x.plug st.plug)
    (ha : PipeWorld.pipeAdd p s w = (.ok q, w')) :
    q = p ∧ Trusty g w' p (sl ++ [st]) ∧ w'.stages = w.stages ∧
      ∀ x ∈ w.stages, Apart x.plug st.plug → (∃ v, Sees w.outs x.plug v) →
        (Honest w.outs x → Honest w'.outs x) ∧ ∃ v, Sees w'.outs x.plug v := by
  obtain ⟨plug, l, v, hp, hl, hst, hpv, hall, hsound⟩ := ht
  simp only [PipeWorld.pipeAdd, hp, hs] at ha
  split at ha
  case isFalse => simp at ha
  case isTrue hlink =>
    obtain ⟨plug', h', hadd⟩ := plug.add_ok st.plug w.outs
    rw [hadd] at ha
    simp only [Prod.mk.injEq, Except.ok.injEq] at ha
    obtain ⟨rfl, rfl⟩ := ha
    obtain ⟨vs, hvs⟩ := hsee
    obtain ⟨hv1, hlen⟩ := Plug.add_valid (Plug.valid_of_sees hpv) (Plug.valid_of_sees hvs) hadd
    have hmono : ∀ x : Plug, (∃ v, Sees w.outs x v) → ∃ v, Sees h' x v := by
      rintro x ⟨vx, hx⟩
      exact Plug.sees_of_valid ((Plug.valid_of_sees hx).mono hlen)
    obtain ⟨v', hv'⟩ := Plug.sees_of_valid hv1
    refine ⟨rfl, ⟨plug', l, v', ?_, by simpa using hl, ?_, hv', ?_, ?_⟩, rfl, ?_⟩
    · simp only
      rw [List.getElem?_set_self (List.getElem?_eq_some_iff.1 hp).1]
    · simp only [PipeWorld.stagesOf] at hst ⊢
      have : (w.lists.modify l (· ++ [s])).getD l [] = w.lists.getD l [] ++ [s] := by
        simp [List.getD_eq_getElem?_getD, List.getElem?_eq_getElem hl]
      rw [this, List.filterMap_append, hst]
      simp [hs]
    · intro x hx
      rcases List.mem_append.1 hx with hx | hx
      · exact hmono _ (hall x hx)
      · simp only [List.mem_singleton] at hx
        subst hx
        exact hmono _ ⟨vs, hvs⟩
    · exact sound_snoc hsound (fun x m => by
        obtain ⟨vx, hx⟩ := hall x m
        exact Plug.valid_of_sees hx) (Plug.valid_of_sees hvs) hon
        (fun x m => ref_apart (hd x m)) hlink hadd
    · intro x hx hap hse
      obtain ⟨vx, hvx⟩ := hse
      refine ⟨fun h => honest_add hadd (Plug.valid_of_sees hvx) (ref_apart hap) h, hmono _ ⟨vx, hvx⟩⟩

/-- what a pipeline that keeps its word gives when called -/
theorem C48_run (g : Rng σ) {w : PipeWorld σ} {p : ℕ} {sl : List (Stage σ)} (ht : Trusty g w p sl) :
    ∃ plug l, w.pipes[p]? = some (plug, l) ∧ w.stagesOf l = sl ∧
      ∀ d t, Labelled d t → (∀ n ∈ plug.inputs, hasColumn d n) → ∀ r,
        NeverRefused g w.outs sl t r ∧
        ∀ t' r', Chain g w.outs sl t r t' r' → ∀ n ∈ plug.outputs w.outs, has t' n := by
  obtain ⟨plug, l, v, hp, hl, hst, hpv, hall, hsound⟩ := ht
  refine ⟨plug, l, hp, hst, ?_⟩
  intro d t hlab hin r
  have e' := hlab.eq
  subst e'
  obtain ⟨h1, h2⟩ := hsound d.timeline r (fun n m => (has_timeline d n).2 (hin n m))
  exact ⟨h1, fun t' r' hc => (h2 t' r' hc).1⟩

/-- a pipeline of one stage that keeps its word -/
theorem C48_one (g : Rng σ) {w : PipeWorld σ} {s : ℕ} {st : Stage σ} (hs : w.stages[s]? = some st)
    (hsee : ∃ v, Sees w.outs st.plug v) (hon : Honest w.outs st) :
    ∃ p w', ((do let l ← PipeWorld.newList [s]; PipeWorld.newPipeline l) : PyM (PipeWorld σ) ℕ) w = (.ok p, w') ∧
      Trusty g w' p [st] ∧ w'.stages = w.stages ∧ w'.outs = w.outs := by
  have hst : PipeWorld.stagesOf { w with lists := w.lists ++ [[s]] } w.lists.length = [st] := by
    simp [PipeWorld.stagesOf, List.getD_eq_getElem?_getD, hs]
  refine ⟨w.pipes.length, { w with lists := w.lists ++ [[s]], pipes := w.pipes ++ [(st.plug, w.lists.length)] },
    ?_, ?_, rfl, rfl⟩
  · simp only [PyM.bind_run, PipeWorld.newList, PipeWorld.newPipeline, hst, List.map_cons, List.map_nil, linkAll,
      PyM.pure]
  · obtain ⟨v, hv⟩ := hsee
    refine ⟨st.plug, w.lists.length, v, by simp, by simp, hst, hv, ?_, sound_single hon⟩
    intro x hx
    simp only [List.mem_singleton] at hx
    subst hx
    exact ⟨v, hv⟩

/-- adding stages one after the other -/
def addAll (p : ℕ) : List ℕ → PyM (PipeWorld σ) ℕ
  | [] => PyM.pure p
  | s :: rest => do
    let _ ← PipeWorld.pipeAdd p s
    addAll p rest

theorem forall₂_mem {w : PipeWorld σ} {ss : List ℕ} {more : List (Stage σ)}
    (h : List.Forall₂ (fun s st => w.stages[s]? = some st) ss more) : ∀ y ∈ more, y ∈ w.stages := by
  induction h with
  | nil => simp
  | cons h1 _ ih =>
    intro y hy
    rcases List.mem_cons.1 hy with rfl | hy
    · exact List.mem_of_getElem? h1
    · exact ih y hy

/-- Any pipeline made of one stage and additions of others, each used once and keeping its word, never lets a
stage down, in whatever order stages with and without needs come. -/
theorem C48_added (g : Rng σ) {w w' : PipeWorld σ} {p q : ℕ} {sl : List (Stage σ)} (ht : Trusty g w p sl)
    {ss : List ℕ} {more : List (Stage σ)}
    (hm : List.Forall₂ (fun s st => w.stages[s]? = some st) ss more)
    (hsee : ∀ st ∈ more, ∃ v, Sees w.outs st.plug v) (hon : ∀ st ∈ more, Honest w.outs st)
    (hd : ((sl ++ more).map (·.plug)).Pairwise Apart) (hr : addAll p ss w = (.ok q, w')) :
    Trusty g w' p (sl ++ more) := by
  induction ss generalizing w sl more with
  | nil =>
    cases hm
    simp only [addAll, PyM.pure, Prod.mk.injEq, Except.ok.injEq] at hr
    obtain ⟨rfl, rfl⟩ := hr
    simpa using ht
  | cons s ss ih =>
    cases hm with
    | cons hs hrest =>
    rename_i st more
    simp only [addAll, PyM.bind_run] at hr
    rcases ha : PipeWorld.pipeAdd p s w with ⟨e | x, w1⟩
    · rw [ha] at hr; simp at hr
    rw [ha] at hr
    simp only at hr
    rw [List.pairwise_map, List.pairwise_append] at hd
    obtain ⟨hd1, hd2, hd3⟩ := hd
    rw [List.pairwise_cons] at hd2
    obtain ⟨rfl, ht', hstages, hkeep⟩ := C48_add g ht hs (hsee st List.mem_cons_self)
      (hon st List.mem_cons_self) (fun x m => hd3 x m st List.mem_cons_self) ha
    have hsym : ∀ a b : Plug, Apart a b → Apart b a := by
      intro a b
      cases a <;> cases b <;> simp only [Apart, imp_self]
      exact fun h => h.symm
    have hmem := forall₂_mem hrest
    have hk : ∀ y ∈ more, (Honest w.outs y → Honest w1.outs y) ∧ ∃ v, Sees w1.outs y.plug v :=
      fun y hy => hkeep y (hmem y hy) (hsym _ _ (hd2.1 y hy)) (hsee y (List.mem_cons_of_mem _ hy))
    have := ih ht' (hrest.imp fun a b h => by rw [hstages]; exact h)
      (fun y hy => (hk y hy).2) (fun y hy => (hk y hy).1 (hon y (List.mem_cons_of_mem _ hy)))
      (by
        rw [List.pairwise_map, List.append_assoc, List.pairwise_append]
        exact ⟨hd1, by simpa using hd2, by simpa using hd3⟩) hr
    simpa using this

/-- The stages of the library keep their word. -/
theorem C48_library (g : Rng σ) (w : PipeWorld σ) :
    (∀ lower upper s w', PipeWorld.newClip lower upper w = (.ok s, w') →
      ∃ st, w'.stages[s]? = some st ∧ Honest w'.outs st) ∧
    (∀ names : Dict String String, names.keys.Nodup → ∀ s w', PipeWorld.newRename names w = (.ok s, w') →
      ∃ st, w'.stages[s]? = some st ∧ Honest w'.outs st) ∧
    (∀ name s w', PipeWorld.newToShuffler name w = (.ok s, w') →
      ∃ st, w'.stages[s]? = some st ∧ Honest w'.outs st) ∧
    (∀ names s w', PipeWorld.newDrop names w = (.ok s, w') →
      ∃ st, w'.stages[s]? = some st ∧ Honest w'.outs st) ∧
    (∀ p s w', PipeWorld.newFault g p w = (.ok s, w') →
      ∃ st, w'.stages[s]? = some st ∧ Honest w'.outs st) ∧
    (∀ n, n ≠ 0 → ∀ s w', PipeWorld.newRepeat n w = (.ok s, w') →
      ∃ st, w'.stages[s]? = some st ∧ Honest w'.outs st) := by
  have hren : ∀ names : Dict String String, names.keys.Nodup → ∀ s w',
      PipeWorld.newRename names w = (.ok s, w') → ∃ st, w'.stages[s]? = some st ∧ Honest w'.outs st := by
    intro names hk s w' h
    simp only [PipeWorld.newRename, PipeWorld.newRestricted, Prod.mk.injEq, Except.ok.injEq] at h
    obtain ⟨rfl, rfl⟩ := h
    exact ⟨_, new_stage, honest_rename hk (by simp [List.getD_eq_getElem?_getD])⟩
  refine ⟨?_, hren, ?_, ?_, ?_, ?_⟩
  · intro lower upper s w' h
    simp only [PipeWorld.newClip, PipeWorld.newFree, Prod.mk.injEq, Except.ok.injEq] at h
    obtain ⟨rfl, rfl⟩ := h
    exact ⟨_, new_stage, fun t r t' r' hp n => clipProcess_names (o := []) hp n⟩
  · intro name s w' h
    exact hren _ (by simp [Dict.keys]) s w' h
  · intro names s w' h
    simp only [PipeWorld.newDrop, PipeWorld.newRestricted, Prod.mk.injEq, Except.ok.injEq] at h
    obtain ⟨rfl, rfl⟩ := h
    exact ⟨_, new_stage, honest_drop (by simp [List.getD_eq_getElem?_getD])⟩
  · intro p s w' h
    simp only [PipeWorld.newFault, PipeWorld.newRestricted, Prod.mk.injEq, Except.ok.injEq] at h
    obtain ⟨rfl, rfl⟩ := h
    exact ⟨_, new_stage, honest_focus (by simp)⟩
  · intro n hn s w' h
    simp only [PipeWorld.newRepeat, PipeWorld.newFree, Prod.mk.injEq, Except.ok.injEq] at h
    obtain ⟨rfl, rfl⟩ := h
    exact ⟨_, new_stage, honest_repeat hn⟩

/-! ### C55: building a pipeline does not alter its parts -/

theorem add_length (p q : Plug) (h : Heap) : h.length ≤ (p.add q h).2.length := by
  cases p <;> cases q <;> simp [Plug.add, Plug.deepcopy, PyM.pure]

theorem linkAll_grows (acc curr : Plug) (rest : List Plug) (h : Heap) :
    h.length ≤ (linkAll acc curr rest h).2.length ∧
      ∀ o < h.length, h.getD o [] <+: (linkAll acc curr rest h).2.getD o [] := by
  induction rest generalizing acc curr h with
  | nil => exact ⟨le_rfl, fun _ _ => List.prefix_rfl⟩
  | cons next rest ih =>
    simp only [linkAll]
    split
    · obtain ⟨acc', h', hadd⟩ := acc.add_ok next h
      rw [hadd]
      simp only
      have hlen := add_length acc next h
      rw [hadd] at hlen
      obtain ⟨h1, h2⟩ := ih acc' next h'
      exact ⟨le_trans hlen h1, fun o ho =>
        (Plug.add_prefix hadd o ho).trans (h2 o (lt_of_lt_of_le ho hlen))⟩
    · exact ⟨le_rfl, fun _ _ => List.prefix_rfl⟩

/-- The full claim is that nothing of the stages and pipelines there were before is changed. What is true of
building a pipeline: the stages, the lists of stages and the pipelines there were are the same, but the lists
of outputs of plugs may grow at the end. -/
theorem C55_partial {w w' : PipeWorld σ} {l : ℕ} {res} (h : PipeWorld.newPipeline l w = (res, w')) :
    w'.stages = w.stages ∧ w'.lists = w.lists ∧ w.pipes <+: w'.pipes ∧
      ∀ o < w.outs.length, w.outs.getD o [] <+: w'.outs.getD o [] := by
  unfold PipeWorld.newPipeline at h
  split at h
  · simp only [Prod.mk.injEq] at h
    obtain ⟨_, rfl⟩ := h
    exact ⟨rfl, rfl, List.prefix_rfl, fun _ _ => List.prefix_rfl⟩
  · rename_i p rest _
    have hg := linkAll_grows p p rest w.outs
    rcases hk : linkAll p p rest w.outs with ⟨e | plug, h'⟩
    · rw [hk] at h hg
      simp only [Prod.mk.injEq] at h
      obtain ⟨_, rfl⟩ := h
      exact ⟨rfl, rfl, List.prefix_rfl, hg.2⟩
    · rw [hk] at h hg
      simp only [Prod.mk.injEq] at h
      obtain ⟨_, rfl⟩ := h
      exact ⟨rfl, rfl, List.prefix_append _ _, hg.2⟩

theorem linkAll_one {acc curr : Plug} {rest : List Plug} {h : Heap}
    (hone : ((acc :: rest).filter fun q => match q with | .free => false | _ => true).length ≤ 1) :
    ∀ o < h.length, (linkAll acc curr rest h).2.getD o [] = h.getD o [] := by
  induction rest generalizing acc curr h with
  | nil => intro o _; rfl
  | cons next rest ih =>
    intro o ho
    simp only [linkAll]
    split
    · cases acc with
      | free =>
        cases next with
        | free =>
          simp only [Plug.add, Plug.deepcopy, PyM.pure]
          exact ih (by simpa using hone) o ho
        | restricted i' o' =>
          simp only [Plug.add, Plug.deepcopy]
          rw [ih (by simpa using hone) o (by simp; omega)]
          simp only [List.getD_eq_getElem?_getD, List.getElem?_append_left ho]
      | restricted i o1 =>
        cases next with
        | free =>
          simp only [Plug.add, PyM.pure]
          exact ih (by simpa using hone) o ho
        | restricted i' o' => simp at hone
    · rfl

/-- Building a pipeline with at most one stage with needs changes nothing of what there was. -/
theorem C55_one_partial {w w' : PipeWorld σ} {l : ℕ} {res} (h : PipeWorld.newPipeline l w = (res, w'))
    (hone : (((w.stagesOf l).map (·.plug)).filter
      fun q => match q with | .free => false | _ => true).length ≤ 1) :
    w'.stages = w.stages ∧ w'.lists = w.lists ∧ w.pipes <+: w'.pipes ∧
      ∀ o < w.outs.length, w'.outs.getD o [] = w.outs.getD o [] := by
  obtain ⟨h1, h2, h3, _⟩ := C55_partial h
  refine ⟨h1, h2, h3, ?_⟩
  unfold PipeWorld.newPipeline at h
  split at h
  · simp only [Prod.mk.injEq] at h
    obtain ⟨_, rfl⟩ := h
    exact fun _ _ => rfl
  · rename_i p rest hpl
    rw [hpl] at hone
    have hg := linkAll_one (curr := p) (h := w.outs) hone
    rcases hk : linkAll p p rest w.outs with ⟨e | plug, h'⟩
    · rw [hk] at h hg
      simp only [Prod.mk.injEq] at h
      obtain ⟨_, rfl⟩ := h
      exact hg
    · rw [hk] at h hg
      simp only [Prod.mk.injEq] at h
      obtain ⟨_, rfl⟩ := h
      exact hg

/-- What is true of `pipeline + stage`: when refused, nothing changes; otherwise the other pipelines, the
other lists of stages and the outputs of all plugs but the one of the added stage are the same. -/
theorem C55_add_partial {w w' : PipeWorld σ} {p s : ℕ} {res} (h : PipeWorld.pipeAdd p s w = (res, w')) :
    w'.stages = w.stages ∧ (∀ e, res = .error e → w' = w) ∧
    (∀ q, q ≠ p → w'.pipes[q]? = w.pipes[q]?) ∧
    (∀ l, (∀ plug, w.pipes[p]? ≠ some (plug, l)) → w'.lists[l]? = w.lists[l]?) ∧
    ∀ o < w.outs.length, (∀ st, w.stages[s]? = some st → st.plug.ref ≠ some o) →
      w'.outs.getD o [] = w.outs.getD o [] := by
  unfold PipeWorld.pipeAdd at h
  rcases hp : w.pipes[p]? with _ | ⟨plug, l⟩
  · rw [hp] at h
    simp only [Prod.mk.injEq] at h
    obtain ⟨_, rfl⟩ := h
    exact ⟨rfl, fun _ _ => rfl, fun _ _ => rfl, fun _ _ => rfl, fun _ _ _ => rfl⟩
  rcases hs : w.stages[s]? with _ | st
  · rw [hp, hs] at h
    simp only [Prod.mk.injEq] at h
    obtain ⟨_, rfl⟩ := h
    exact ⟨rfl, fun _ _ => rfl, fun _ _ => rfl, fun _ _ => rfl, fun _ _ _ => rfl⟩
  rw [hp, hs] at h
  simp only at h
  split at h
  · obtain ⟨plug', h', hadd⟩ := plug.add_ok st.plug w.outs
    rw [hadd] at h
    simp only [Prod.mk.injEq] at h
    obtain ⟨rfl, rfl⟩ := h
    refine ⟨rfl, fun e he => by simp at he, ?_, ?_, ?_⟩
    · intro q hq
      simp only
      rw [List.getElem?_set_ne (Ne.symm hq)]
    · intro l' hl'
      have : l ≠ l' := fun e => hl' plug (by rw [e])
      simp only
      rw [List.getElem?_modify_ne _ _ this]
    · intro o ho hne
      exact Plug.add_getD hadd o ho (hne st rfl)
  · simp only [Prod.mk.injEq] at h
    obtain ⟨_, rfl⟩ := h
    exact ⟨rfl, fun _ _ => rfl, fun _ _ => rfl, fun _ _ => rfl, fun _ _ _ => rfl⟩

end Hadar.Props
