import Verif.Proofs.Foresee
import Verif.Props.Laws
import Verif.Props.Shuffler
import Verif.Props.PipelineExamples

/-!
# C135: whether a pipeline runs to the end is known beforehand
-/

namespace Hadar.Props

open Hadar Spec

variable {σ : Type} {g : Rng σ} {w : PipeWorld σ}

/-- the stage that a constructor of the library makes -/
theorem fault_stage {p : FaultParams} {a : ℕ} (h : MadeBy (PipeWorld.newFault g p) w a) :
    ∃ o, w.stages[a]? = some ⟨.restricted ["quantity"] o, focusProcess (faultScenario g p)⟩ := by
  obtain ⟨w0, w1, h1, h2⟩ := h
  simp only [PipeWorld.newFault, PipeWorld.newRestricted, Prod.mk.injEq, Except.ok.injEq] at h1
  obtain ⟨rfl, rfl⟩ := h1
  rw [new_stage] at h2
  exact ⟨_, h2.symm⟩

/-- the columns that the plug of a stage announces -/
def announced (w : PipeWorld σ) (s : ℕ) : List String := match w.stages[s]? with
  | some st => st.plug.outputs w.outs
  | none => []

theorem fault_foreseen (hg : Lawful g) {p : FaultParams} {s : ℕ} (hs : MadeBy (PipeWorld.newFault g p) w s) {d : Data} {o : Outline}
    (ho : Drawn o d.timeline) (r : Rand σ) : AsForeseen (foresee (.fault p) (announced w s) o) (w.callStage g s (d, r)).1 := by
  obtain ⟨ref, hst⟩ := fault_stage hs
  have hout : announced w s = (Plug.restricted ["quantity"] ref).outputs w.outs := by simp only [announced, hst]
  generalize announced w s = out at hout ⊢
  have hcall : (w.callStage g s (d, r)).1 = if "quantity" ∈ o.names then
      (focusProcess (faultScenario g p) out d.timeline (reseed g r).2).1 else .error .valueError := by
    simp only [PipeWorld.callStage, hst, Stage.call_run, Plug.computable, Plug.inputs, List.all_cons, List.all_nil, Bool.and_true,
      decide_eq_true_eq, ho.names, ← hout]
    split <;> rfl
  rw [hcall]
  simp only [foresee]
  by_cases hq : "quantity" ∈ o.names
  swap
  · simp only [hq, false_and, if_false]; rfl
  have hns : d.timeline.scenarios ≠ [] := by
    have : "quantity" ∈ d.timeline.names := by rw [ho.names]; exact hq
    obtain ⟨scn, v, hm⟩ := (mem_names _ _).1 this
    exact List.ne_nil_of_mem ((mem_scenarios _ _).2 ⟨_, v, hm⟩)
  have hidx : d.timeline.index = o.rows := ho.1
  rw [if_pos hq]
  have hfail : ¬ (out ≠ [] ∧ SeedOk p.seed ∧ 0 ≤ p.occurFreq ∧ p.occurFreq ≤ 1 ∧ o.rows.Nodup) →
      (focusProcess (faultScenario g p) out d.timeline (reseed g r).2).1 = .error .valueError := by
    intro hbad
    rcases hf : focusProcess (faultScenario g p) out d.timeline (reseed g r).2 with ⟨e | t', r'⟩
    · have hr : (focusProcess (faultScenario g p) out d.timeline).Raises (· = .valueError) (reseed g r).2 := by
        refine .bind (focusLoop_raises (P := (· = .valueError)) _ rfl (fun scn hm r' e he => ?_) _) fun _ _ _ => .pure _ _
        refine (faultScenario_raises g p scn _ r' e he).resolve_right fun h => h.2 ?_
        rw [ho.sub hm]
        exact hq
      exact congrArg Except.error (hr e (by rw [hf]))
    · exfalso
      obtain ⟨scn, hm⟩ := List.exists_mem_of_ne_nil _ hns
      obtain ⟨r1, v, r2, h1, h2⟩ := focus_sub hf hm
      obtain ⟨faults, _, _, h3⟩ := faultScenario_ok hg h1
      have hv : v.index = o.rows := (subtractQuantity_ok h3).1.trans hidx
      refine hbad ⟨fun h0 => ?_, (faultScenario_valid h1).1, (faultScenario_valid h1).2.1, (faultScenario_valid h1).2.2, by_contra fun hn => ?_⟩
      · rw [assignScenario_refuses (.inl h0)] at h2; cases h2
      · rw [assignScenario_refuses (.inr (by rw [hv]; exact hn))] at h2; cases h2
  split
  next hc =>
    obtain ⟨-, ho0, hseed, hf1, hf2⟩ := hc
    split
    next hd =>
      split
      next hr =>
        obtain ⟨cols, r', hloop⟩ := focusLoop_runs (process := faultScenario g p) (out := out) (t := d.timeline) d.timeline.scenarios
          (fun scn hm r' => by
            obtain ⟨v, r2, e1, e2, e3⟩ := faultScenario_runs hg (p := p) (scn := scn) (s := d.timeline.sub scn) hseed hf1 hf2
              (by rw [show (d.timeline.sub scn).index = o.rows from hidx]; exact hd.2) (by rw [ho.sub hm]; exact hq)
              (by rw [ho.sub hm]; exact ho.2.1) r'
            have hv : v.index = o.rows := e2.trans hidx
            obtain ⟨c, hc⟩ := assignScenario_runs (n := d.timeline.index.length) (out := out) (v := v) ho0
              (by rw [e3, ho.sub hm]; exact ho.2.1) (by rw [hv, hidx]) (by rw [hv]; exact hr)
            exact ⟨v, r2, c, e1, hc⟩) (reseed g r).2
        have hf : focusProcess (faultScenario g p) out d.timeline (reseed g r).2 =
            (.ok ⟨rangeIndex d.timeline.index.length, cols⟩, r') := by
          simp only [focusProcess, PyM.bind_run, hloop, PyM.pure]
        refine ⟨_, by rw [hf], ?_⟩
        rw [← hidx]
        exact Drawn.of_focus hd.1 hns hf
      next hr => exact hfail fun h => hr h.2.2.2.2
    next => trivial
  next hc => exact hfail fun h => hc ⟨hq, h.1, h.2.1, h.2.2.1, h.2.2.2.1⟩

/-- One stage of the library on a frame whose columns come scenario by scenario, each with the same names: what it gives, or the exception
that it raises, is as foreseen from the names, whatever the values and whatever is drawn. -/
theorem C135_stage (hg : Lawful g) {k : Known} {s : ℕ} (hs : MadeBy (k.make g) w s) {d : Data} {t : Timeline} (hd : Labelled d t) {o : Outline}
    (ho : Drawn o t) (r : Rand σ) : AsForeseen (foresee k (announced w s) o) (w.callStage g s (d, r)).1 := by
  have e' := hd.eq
  subst e'
  cases k with
  | clip l u =>
    rw [clip_computes (g := g) hs d r]
    have := ho.map (t' := clipFrame l u d.timeline) id (List.map (clipValue l u)) (by simpa using ho.2.1) rfl rfl
    exact ⟨_, rfl, by simpa using this⟩
  | rename m =>
    rw [rename_computes (g := g) hs d r]
    have hk : (∀ n ∈ Dict.keys m, n ∈ d.timeline.names) ↔ ∀ p ∈ m, p.1 ∈ o.names := by
      rw [ho.names]; simp [Dict.keys]
    simp only [needing, hk, foresee]
    split
    · split
      next hn =>
        refine ⟨_, rfl, ?_⟩
        exact ho.map (newName m) id hn rfl (by simp [renameFrame, newName_eq])
      · trivial
    · rfl
  | drop l =>
    rw [drop_computes (g := g) hs d r]
    simp only [needing, ho.names, foresee]
    split
    · refine ⟨_, rfl, ?_⟩
      exact ho.filter (fun n => decide (n ∉ l)) rfl (by simp [dropFrame])
    · rfl
  | again n =>
    have hc := repeat_computes (g := g) (n := n) hs d r
    have hidx : d.timeline.index = o.rows := ho.1
    by_cases h0 : o.names = []
    · rw [hc]
      have hcols := ho.of_blank h0
      simp only [repeatFrame, foresee, hcols, Timeline.scenarios, Timeline.names, unique, List.map_nil, List.length_nil, Nat.mul_zero]
      refine ⟨_, rfl, ?_⟩
      rw [h0, ite_self]
      exact Drawn.blank (by rw [hidx]; rfl) (by simp)
    · obtain ⟨scns, v, h1, hr⟩ := ho.regular h0
      obtain ⟨w0, w1, e1, e2⟩ := hs
      simp only [Known.make, PipeWorld.newRepeat, PipeWorld.newFree, Prod.mk.injEq, Except.ok.injEq] at e1
      obtain ⟨rfl, rfl⟩ := e1
      rw [new_stage] at e2
      obtain ⟨t', a1, a2, a3⟩ := repeatProcess_regular (σ := σ) hr n [] (reseed g r).2
      have hcall : (w.callStage g w0.stages.length (d, r)).1 = .ok t' := by
        simp only [PipeWorld.callStage, ← e2, Stage.call_run]
        rw [if_pos (by simp [Plug.computable, Plug.inputs])]
        simp only [Plug.outputs, a1]
      rw [hcall]
      refine ⟨t', rfl, ?_⟩
      rw [← hidx]
      by_cases hn : n = 0
      · subst hn
        rw [if_pos rfl]
        refine Drawn.blank a2 ?_
        have := a3.2.2.2
        simpa [rangeIndex] using this
      · rw [if_neg hn]
        have := Drawn.of_regular a3 (by
          simp only [rangeIndex, ne_eq, List.map_eq_nil_iff, List.range_eq_nil, Nat.mul_eq_zero, List.length_eq_zero_iff]
          exact fun h => h.elim h1 hn)
        rw [a2] at this
        exact this
  | fault p => exact fault_foreseen hg hs ho r

/-- what is told of the stages of a pipeline -/
def told (w : PipeWorld σ) (ks : List Known) (l : List ℕ) : List (Known × List String) := List.zip ks (l.map (announced w))

/-- Stages of the library called one after the other. -/
theorem C135_turns (hg : Lawful g) {ks : List Known} {l : List ℕ} (hs : List.Forall₂ (fun k s => MadeBy (k.make g) w s) ks l) {d : Data}
    {t : Timeline} (hd : Labelled d t) {o : Outline} (ho : Drawn o t) (r : Rand σ) :
    AsForeseen (foreseeAll (told w ks l) o) (inTurn g w l d r) := by
  have e' := hd.eq
  subst e'
  clear hd
  induction hs generalizing d o r with
  | nil => exact ⟨_, rfl, ho⟩
  | @cons k s ks l hk hrest ih =>
    have h1 := C135_stage hg hk (labelled_timeline d) ho r
    simp only [told, List.map_cons, List.zip_cons_cons, foreseeAll, inTurn]
    rcases hc : w.callStage g s (d, r) with ⟨e | t, x⟩
    · rw [hc] at h1
      revert h1
      rcases foresee k (announced w s) o with _ | (e' | o')
      · exact id
      · exact id
      · rintro ⟨t, h, -⟩; cases h
    · rw [hc] at h1
      revert h1
      rcases foresee k (announced w s) o with _ | (e' | o')
      · exact fun _ => trivial
      · intro h; cases h
      · rintro ⟨t', h, h'⟩
        cases h
        exact ih (d := .multi t) x.2 h'

theorem callStages_inTurn {l : List ℕ} (hl : ∀ s ∈ l, ∃ st, w.stages[s]? = some st) (t : Timeline) (r : Rand σ) :
    (callStages g w.outs (l.filterMap (w.stages[·]?)) t r).1 = inTurn g w l (.multi t) r := by
  induction l generalizing t r with
  | nil => rfl
  | cons s l ih =>
    obtain ⟨st, hst⟩ := hl s List.mem_cons_self
    rw [List.filterMap_cons_some hst]
    simp only [callStages, inTurn, PipeWorld.callStage, hst]
    rcases st.call g w.outs (.multi t, r) with ⟨e | t', x⟩
    · rfl
    · exact ih (fun s m => hl s (List.mem_cons_of_mem _ m)) t' x.2

/-- A pipeline of stages of the library, on a frame whose columns come scenario by scenario, each with the same names: ValueError if the pipeline
needs a column that is not there; otherwise what its stages give one after the other, as foreseen from the names, the labels of rows and the
parameters. Values and draws play no part. -/
theorem C135 (hg : Lawful g) {p l : ℕ} {plug : Plug} (hp : w.pipes[p]? = some (plug, l)) {ks : List Known}
    (hs : List.Forall₂ (fun k s => MadeBy (k.make g) w s) ks (w.lists.getD l []))
    {d : Data} {t : Timeline} (hd : Labelled d t) {o : Outline} (ho : Drawn o t) (r : Rand σ) :
    AsForeseen (if ∀ n ∈ plug.inputs, n ∈ o.names then foreseeAll (told w ks (w.lists.getD l [])) o else some (.error .valueError))
      (w.callPipe g p (d, r)).1 := by
  have e' := hd.eq
  subst e'
  have hl : ∀ s ∈ w.lists.getD l [], ∃ st, w.stages[s]? = some st := by
    intro s hm
    obtain ⟨k, hk⟩ : ∃ k : Known, MadeBy (k.make g) w s := by
      obtain ⟨i, hi, e⟩ := List.getElem_of_mem hm
      subst e
      exact ⟨_, (List.forall₂_iff_get.1 hs).2 i ((List.forall₂_iff_get.1 hs).1 ▸ hi) hi⟩
    obtain ⟨w0, w1, h1, h2⟩ := hk
    rw [← h2]
    cases k <;> simp only [Known.make, PipeWorld.newClip, PipeWorld.newRename, PipeWorld.newDrop, PipeWorld.newRepeat, PipeWorld.newFault,
      PipeWorld.newFree, PipeWorld.newRestricted, Prod.mk.injEq, Except.ok.injEq] at h1 <;>
      (obtain ⟨rfl, rfl⟩ := h1; exact ⟨_, new_stage⟩)
  simp only [PipeWorld.callPipe, hp, callPipeline_run, computable_iff, ho.names]
  split
  · simp only [PipeWorld.stagesOf]
    rw [callStages_inTurn hl]
    exact C135_turns hg hs (.multi _) ho r
  · rfl

/-- So when all can be told, two frames of the same outline have the same fate, whatever their values and the draws. -/
theorem C135_fate (hg : Lawful g) {ks : List Known} {l : List ℕ} (hs : List.Forall₂ (fun k s => MadeBy (k.make g) w s) ks l) {o : Outline}
    (htold : foreseeAll (told w ks l) o ≠ none) {t t' : Timeline} (ht : Drawn o t) (ht' : Drawn o t') (r r' : Rand σ) :
    (∀ e, inTurn g w l (.multi t) r = .error e ↔ inTurn g w l (.multi t') r' = .error e) ∧
      ∀ x x', inTurn g w l (.multi t) r = .ok x → inTurn g w l (.multi t') r' = .ok x' → x.names = x'.names ∧ x.index = x'.index := by
  have h1 := C135_turns hg hs (.multi t) ht r
  have h2 := C135_turns hg hs (.multi t') ht' r'
  revert h1 h2 htold
  rcases foreseeAll (told w ks l) o with _ | (e | o')
  · intro h; exact absurd rfl h
  · intro _ h1 h2
    rw [h1, h2]
    exact ⟨fun _ => Iff.rfl, fun x _ h => by cases h⟩
  · rintro - ⟨a, ha, ha'⟩ ⟨b, hb, hb'⟩
    rw [ha, hb]
    refine ⟨fun e => ⟨fun h => (nomatch h), fun h => (nomatch h)⟩, fun x x' hx hx' => ?_⟩
    cases hx
    cases hx'
    exact ⟨ha'.names.trans hb'.names.symm, ha'.1.trans hb'.1.symm⟩

/-- On any frame, a stage of the library raises nothing but ValueError; or else KeyError, by a stage of faults, when some scenario has no
quantity (and another has). -/
theorem C135_errors {k : Known} {s : ℕ} (hs : MadeBy (k.make g) w s) {d : Data} {t : Timeline} (hd : Labelled d t) (r : Rand σ) {e : PyErr}
    (he : (w.callStage g s (d, r)).1 = .error e) :
    e = .valueError ∨ (e = .keyError ∧ (∃ p, k = .fault p) ∧ hasColumn d "quantity" ∧
      ∃ scn n v, ((scn, n), v) ∈ t.cols ∧ ∀ v', ((scn, "quantity"), v') ∉ t.cols) := by
  have e' := hd.eq
  subst e'
  have hneed : ∀ {l : List String} {t' : Timeline}, needing l d.timeline t' = .error e → e = .valueError := by
    intro l t' h
    unfold needing at h
    split at h
    · cases h
    · cases h; rfl
  cases k with
  | clip l u => rw [clip_computes (g := g) hs d r] at he; cases he
  | rename m => rw [rename_computes (g := g) hs d r] at he; exact .inl (hneed he)
  | drop l => rw [drop_computes (g := g) hs d r] at he; exact .inl (hneed he)
  | again n =>
    rw [repeat_computes (g := g) (n := n) hs d r] at he
    unfold repeatFrame at he
    split at he
    · cases he
    · cases he; exact .inl rfl
  | fault p =>
    obtain ⟨ref, hst⟩ := fault_stage hs
    simp only [PipeWorld.callStage, hst, Stage.call_run, computable_iff] at he
    split at he
    · next hq =>
      have hq' : has d.timeline "quantity" := (mem_names _ _).1 (hq _ (by simp [Plug.inputs]))
      have hr : (focusProcess (faultScenario g p) ((Plug.restricted ["quantity"] ref).outputs w.outs) d.timeline).Raises
          (fun e => e = .valueError ∨ (e = .keyError ∧ ∃ scn ∈ d.timeline.scenarios, "quantity" ∉ (d.timeline.sub scn).cols.map Prod.fst))
          (reseed g r).2 := by
        refine .bind (focusLoop_raises (P := fun e => e = .valueError ∨ (e = .keyError ∧ ∃ scn ∈ d.timeline.scenarios,
          "quantity" ∉ (d.timeline.sub scn).cols.map Prod.fst)) _ (.inl rfl) (fun scn hm r' e he => ?_) _) fun _ _ _ => .pure _ _
        exact (faultScenario_raises g p scn _ r' e he).imp id fun h => ⟨h.1, scn, hm, h.2⟩
      refine (hr e he).imp id fun h => ⟨h.1, ⟨p, rfl⟩, (has_timeline d _).1 hq', ?_⟩
      obtain ⟨scn, hm, hn⟩ := h.2
      obtain ⟨n, v, hc⟩ := (mem_scenarios _ _).1 hm
      refine ⟨scn, n, v, hc, fun v' hv' => hn ?_⟩
      refine List.mem_map.2 ⟨("quantity", v'), ?_, rfl⟩
      simp only [Timeline.sub, List.mem_map, List.mem_filter]
      exact ⟨_, ⟨hv', by simp⟩, rfl⟩
    · cases he; exact .inl rfl

/-- Sampling scenarios with the default sampler fails exactly when some are asked for and there is none, and then by ValueError. -/
theorem C135_sample (hg : Lawful g) (w : PipeWorld σ) (nb : ℕ) (d : Rows) (o : Origin) (r : Rand σ) (e : PyErr) :
    (Source.sample g w (npRandint g) nb (⟨some d, o⟩, r)).1 = .error e ↔ d = [] ∧ nb ≠ 0 ∧ e = .valueError := by
  rw [C57_fails g w (C57_randint hg)]
  unfold npRandint
  by_cases hn : nb = 0
  · rw [if_pos hn]
    exact ⟨fun h => (nomatch h), fun h => absurd hn h.2.1⟩
  · rw [if_neg hn]
    cases d with
    | nil =>
      rw [if_pos (by simp)]
      exact ⟨fun h => ⟨rfl, hn, by cases h; rfl⟩, fun h => by rw [h.2.2]⟩
    | cons a d =>
      rw [if_neg (by simp only [List.length_cons]; push_cast; omega)]
      exact ⟨fun h => (nomatch h), fun h => (nomatch h.1)⟩

/-! ### Cases -/

/-- `Clip`, `Fault`, `RepeatScenario`, `Rename`, `Drop` -/
def kinds : List Known := [.clip (some 0) (some 15), .fault params, .again 3, .rename [("quantity", "to_shuffler")], .drop ["price"]]

/-- the session after the first `n` stages have been made -/
def stagesMade (n : ℕ) : PipeWorld ℕ := (kinds.take n).foldl (fun w k => (k.make g0 w).2) PipeWorld.empty

/-- `Clip(0, 15) + Fault(...) + RepeatScenario(3) + Rename(quantity="to_shuffler")` -/
def foreseenSession : PipeWorld ℕ := (((do
    let p ← PipeWorld.stageAdd 0 1
    let p ← PipeWorld.pipeAdd p 2
    PipeWorld.pipeAdd p 3) : PyM (PipeWorld ℕ) ℕ) (stagesMade 5)).2

theorem foreseen_stages : List.Forall₂ (fun k s => MadeBy (Known.make g0 k) foreseenSession s) kinds [0, 1, 2, 3, 4] :=
  .cons ⟨stagesMade 0, stagesMade 1, rfl, rfl⟩ (.cons ⟨stagesMade 1, stagesMade 2, rfl, rfl⟩ (.cons ⟨stagesMade 2, stagesMade 3, rfl, rfl⟩
    (.cons ⟨stagesMade 3, stagesMade 4, rfl, rfl⟩ (.cons ⟨stagesMade 4, stagesMade 5, rfl, rfl⟩ .nil))))

theorem two_drawn : Drawn ⟨["quantity", "price"], counted 2⟩ twoScenarios := Drawn.of_regular two_regular (by simp)

theorem first_four : List.Forall₂ (fun k s => MadeBy (Known.make g0 k) foreseenSession s) (kinds.take 4) [0, 1, 2, 3] := by
  have h := foreseen_stages
  rcases h with _ | ⟨h1, _ | ⟨h2, _ | ⟨h3, _ | ⟨h4, -⟩⟩⟩⟩
  exact .cons h1 (.cons h2 (.cons h3 (.cons h4 .nil)))

/-- what is foreseen of it: the column that the shuffler takes -/
theorem foreseen_four : foreseeAll (told foreseenSession (kinds.take 4) [0, 1, 2, 3]) ⟨["quantity", "price"], counted 2⟩ =
    some (.ok ⟨["to_shuffler"], counted 2⟩) := by with_unfolding_all rfl

example (r : Rand ℕ) : ∃ t, (foreseenSession.callPipe g0 0 (.multi twoScenarios, r)).1 = .ok t ∧ Drawn ⟨["to_shuffler"], counted 2⟩ t := by
  have h := C135 g0_lawful (w := foreseenSession) (p := 0) (l := 0) (plug := .restricted ["quantity"] 1) (by with_unfolding_all rfl)
    (ks := kinds.take 4) first_four (.multi twoScenarios) two_drawn r
  rw [if_pos (by decide), show foreseenSession.lists.getD 0 [] = [0, 1, 2, 3] from rfl, foreseen_four] at h
  exact h

/-- a fault lets no price through, so that none can be dropped -/
example (r : Rand ℕ) : inTurn g0 foreseenSession [1, 4] (.multi twoScenarios) r = .error .valueError := by
  rcases foreseen_stages with _ | ⟨_, _ | ⟨h2, _ | ⟨_, _ | ⟨_, _ | ⟨h5, _⟩⟩⟩⟩⟩
  have h := C135_turns g0_lawful (.cons h2 (.cons h5 .nil)) (.multi twoScenarios) two_drawn r
  have e : foreseeAll (told foreseenSession [.fault params, .drop ["price"]] [1, 4]) ⟨["quantity", "price"], counted 2⟩ =
    some (.error .valueError) := by with_unfolding_all rfl
  rw [e] at h
  exact h

/-- a scenario of another draw with other values -/
def otherScenario : Timeline := ⟨rangeIndex 2, [((.num 4, "quantity"), [none, some 7]), ((.num 4, "price"), [some 0, none])]⟩

theorem other_drawn : Drawn ⟨["quantity", "price"], counted 2⟩ otherScenario :=
  ⟨rfl, by decide, [(.num 4, [("quantity", [none, some 7]), ("price", [some 0, none])])], by simp, by simp, by simp, rfl⟩

example := C135_stage g0_lawful (k := .clip (some 0) (some 15)) (w := foreseenSession) (s := 0) ⟨stagesMade 0, stagesMade 1, rfl, rfl⟩
  (.multi otherScenario) other_drawn (rand 3)
example := C135_fate g0_lawful first_four (by rw [foreseen_four]; simp) two_drawn other_drawn (rand 1) (rand 8)

/-- scenario 7 has no quantity -/
def lopsided : Timeline := ⟨rangeIndex 1, [((.num 0, "quantity"), [some 10]), ((.num 7, "price"), [some 3])]⟩

theorem lopsided_raises : (faulty.callStage g0 0 (.multi lopsided, rand 1)).1 = .error .keyError := by with_unfolding_all rfl

example := C135_errors (k := .fault params) (w := faulty) (s := 0) ⟨PipeWorld.empty, faulty, rfl, rfl⟩ (.multi lopsided) (rand 1) lopsided_raises
example := C135_sample g0_lawful PipeWorld.empty 3 [] (.raw []) (rand 0) .valueError

end Hadar.Props
