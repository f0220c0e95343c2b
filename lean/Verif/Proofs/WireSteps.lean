import Verif.Proofs.Wire
import Verif.Proofs.Reading
import Verif.Proofs.LPAccept

/-! # The time steps of a study, and the answer of a worker -/

namespace Hadar

open Spec PyTree

theorem except_bind_ok {α β : Type} {a : Except PyErr α} {f : α → Except PyErr β} {y : β} :
    (a >>= f) = .ok y ↔ ∃ x, a = .ok x ∧ f x = .ok y := by
  cases a <;> simp [bind, Except.bind]

theorem loopM_each₂ {α σ β : Type} {f : α → σ → Except PyErr (β × σ)} {l : List α} {b : σ} {r : List β × σ}
    (h : loopM f l b = .ok r) : List.Forall₂ (fun x y => ∃ b b', f x b = .ok (y, b')) l r.1 := by
  induction l generalizing b r with
  | nil => simp only [loopM, Except.ok.injEq] at h; subst h; exact .nil
  | cons a l ih =>
    rw [loopM, except_bind_ok] at h
    obtain ⟨y, hy, h⟩ := h
    rw [except_bind_ok] at h
    obtain ⟨ys, hys, h⟩ := h
    cases h
    exact .cons ⟨b, y.2, hy⟩ (ih hys)

theorem mapM_each₂ {α β : Type} {f : α → Except PyErr β} {l : List α} {r : List β}
    (h : l.mapM f = .ok r) : List.Forall₂ (fun x y => f x = .ok y) l r := by
  induction l generalizing r with
  | nil => rw [List.mapM_nil] at h; cases h; exact .nil
  | cons a l ih =>
    rw [List.mapM_cons, except_bind_ok] at h
    obtain ⟨y, hy, h⟩ := h
    rw [except_bind_ok] at h
    obtain ⟨ys, hys, h⟩ := h
    cases h
    exact .cons hy (ih hys)

/-- a node of the problem has as many elements as the node of the study -/
def SameLengths (n : InputNode) (m : LPNode Var) : Prop :=
  m.consumptions.length = n.consumptions.length ∧ m.productions.length = n.productions.length ∧
    m.storages.length = n.storages.length ∧ m.links.length = n.links.length

theorem LPNode.ofInput_lengths {net node : String} {scn t : ℕ} {n : InputNode} {m : LPNode Var}
    (h : LPNode.ofInput net node scn t n = .ok m) : SameLengths n m := by
  unfold LPNode.ofInput at h
  simp only [except_bind_ok] at h
  obtain ⟨a, ha, b, hb, c, hc, d, hd, h⟩ := h
  cases h
  refine ⟨?_, ?_, ?_, ?_⟩
  · simpa using (mapM_each₂ ha).length_eq.symm
  · simpa using (mapM_each₂ hb).length_eq.symm
  · simpa using (mapM_each₂ hc).length_eq.symm
  · simpa using (mapM_each₂ hd).length_eq.symm

/-- a time step has the networks, nodes, elements and converters of the study -/
structure SameShape (s : Study) (ts : LPTimeStep Var) : Prop where
  networks : List.Forall₂ (fun p q => q.1 = p.1 ∧
    List.Forall₂ (fun a b => b.1 = a.1 ∧ SameLengths a.2 b.2) p.2.nodes q.2) s.networks ts.networks
  converters : List.Forall₂ (fun p q => q.1 = p.1 ∧ q.2.srcRatios.map Prod.fst = p.2.srcRatios.map Prod.fst)
    s.converters ts.converters

theorem forall₂_with_mem {α β : Type} {R : α → β → Prop} {l : List α} {r : List β} (h : List.Forall₂ R l r) :
    List.Forall₂ (fun a b => a ∈ l ∧ R a b) l r := by
  induction h with
  | nil => exact .nil
  | cons hr h ih =>
    refine .cons ⟨by simp, hr⟩ (ih.imp ?_)
    rintro a b ⟨h1, h2⟩
    exact ⟨by simp [h1], h2⟩

theorem forall₂_right {α β : Type} {R : α → β → Prop} {l : List α} {r : List β} (h : List.Forall₂ R l r) {b : β}
    (hb : b ∈ r) : ∃ a ∈ l, R a b := by
  induction h with
  | nil => simp at hb
  | cons hr h ih =>
    rcases List.mem_cons.mp hb with rfl | hb
    · exact ⟨_, by simp, hr⟩
    · obtain ⟨a, ha, hr⟩ := ih hb
      exact ⟨a, by simp [ha], hr⟩

theorem forall₂_left {α β : Type} {R : α → β → Prop} {l : List α} {r : List β} (h : List.Forall₂ R l r) {a : α}
    (ha : a ∈ l) : ∃ b ∈ r, R a b := by
  obtain ⟨b, hb, hr⟩ := forall₂_right h.flip ha
  exact ⟨b, hb, hr⟩

theorem forall₂_fst {A B C : Type} {R : A × B → A × C → Prop} {l : List (A × B)} {r : List (A × C)}
    (h : List.Forall₂ R l r) (hr : ∀ a b, R a b → b.1 = a.1) : r.map Prod.fst = l.map Prod.fst := by
  induction h with
  | nil => rfl
  | cons h1 _ ih => simp [ih, hr _ _ h1]

theorem getNodeVar_lengths {s : Study} (hs : Dictionaries s) {p : String × InputNetwork} (hp : p ∈ s.networks)
    {a : String × InputNode} (ha : a ∈ p.2.nodes) {t scn : ℕ} {m : LPNode Var}
    (h : getNodeVar s p.1 a.1 t scn = .ok m) : SameLengths a.2 m := by
  unfold getNodeVar at h
  simp only [except_bind_ok] at h
  obtain ⟨net, hnet, n, hn, h⟩ := h
  have e1 := Dict.getE_ok hnet
  rw [Dict.get?_of_mem hs.networks hp] at e1
  cases e1
  have e2 := Dict.getE_ok hn
  rw [Dict.get?_of_mem (hs.nodes _ hp) ha] at e2
  cases e2
  exact LPNode.ofInput_lengths h

theorem getConvVar_sources {s : Study} (hs : Dictionaries s) {p : String × Converter} (hp : p ∈ s.converters)
    {t scn : ℕ} {r : LPConverter Var × List Cmd} (h : getConvVar s p.1 t scn = .ok r) :
    r.1.srcRatios.map Prod.fst = p.2.srcRatios.map Prod.fst := by
  unfold getConvVar at h
  simp only [except_bind_ok] at h
  obtain ⟨v, hv, a, ha, c, hc, d, hd, e, he, h⟩ := h
  have e1 := Dict.getE_ok hv
  rw [Dict.get?_of_mem hs.converters hp] at e1
  cases e1
  cases h
  have := mapM_each₂ ha
  clear ha he
  dsimp only
  generalize p.2.srcRatios = l at this
  induction this with
  | nil => rfl
  | cons h1 _ ih =>
    rw [except_bind_ok] at h1
    obtain ⟨q, _, h1⟩ := h1
    cases h1
    simp [ih]

theorem buildTime_shape {s : Study} (hs : Dictionaries s) {scn t : ℕ} {b b' : Build} {ts : LPTimeStep Var}
    (h : buildTime s scn t b = .ok (ts, b')) : SameShape s ts := by
  unfold buildTime at h
  simp only [except_bind_ok] at h
  obtain ⟨nets, hn, convs, hc, h⟩ := h
  cases h
  constructor
  · refine (forall₂_with_mem (loopM_each₂ hn)).imp ?_
    rintro p q ⟨hp, b1, b2, hq⟩
    unfold buildNet at hq
    rw [except_bind_ok] at hq
    obtain ⟨r, hr, hq⟩ := hq
    cases hq
    refine ⟨rfl, (forall₂_with_mem (loopM_each₂ hr)).imp ?_⟩
    rintro a c ⟨ha, b3, b4, hn⟩
    unfold buildNode at hn
    simp only [except_bind_ok] at hn
    obtain ⟨m, hm, st, hst, hn⟩ := hn
    cases hn
    exact ⟨rfl, getNodeVar_lengths hs hp ha hm⟩
  · refine (forall₂_with_mem (loopM_each₂ hc)).imp ?_
    rintro p q ⟨hp, b1, b2, hq⟩
    unfold buildConv at hq
    simp only [except_bind_ok] at hq
    obtain ⟨c, hc, x, hx, y, hy, hq⟩ := hq
    cases hq
    exact ⟨rfl, getConvVar_sources hs hp hc⟩

theorem buildAll_shape {s : Study} (hs : Dictionaries s) {scn : ℕ} {b : List (LPTimeStep Var) × List Cmd}
    (h : buildAll s scn = .ok b) : b.1.length = s.horizon ∧ ∀ ts ∈ b.1, SameShape s ts := by
  unfold buildAll at h
  simp only [except_bind_ok] at h
  obtain ⟨r, hr, i, hi, h⟩ := h
  cases h
  have := loopM_each₂ hr
  refine ⟨by simpa using this.length_eq.symm, fun ts hts => ?_⟩
  obtain ⟨t, -, b1, b2, ht⟩ := forall₂_right this hts
  exact buildTime_shape hs ht

theorem SameShape.known {s : Study} {ts : LPTimeStep Var} (h : SameShape s ts) (ty : Types) :
    KnownStep ty ts ↔ KnownTypes ty s := by
  constructor
  · rintro ⟨h1, h2⟩
    have node : ∀ g d n, HasNode s g d n → ∃ m, SameLengths n m ∧ KnownLPNode ty g d m := by
      rintro g d n ⟨net, hg, hd⟩
      obtain ⟨p, hp, e, hn⟩ := forall₂_left h.networks hg
      obtain ⟨q, hq, e', hl⟩ := forall₂_left hn hd
      refine ⟨q.2, hl, ?_⟩
      have := h1 p hp q hq
      rwa [e, e'] at this
    constructor
    · intro g d n hn i hi
      obtain ⟨m, hl, hk⟩ := node g d n hn
      exact hk.1 i (by rw [hl.1]; exact hi)
    · intro g d n hn i hi
      obtain ⟨m, hl, hk⟩ := node g d n hn
      exact hk.2.1 i (by rw [hl.2.1]; exact hi)
    · intro g d n hn i hi
      obtain ⟨m, hl, hk⟩ := node g d n hn
      exact hk.2.2.1 i (by rw [hl.2.2.1]; exact hi)
    · intro g d n hn i hi
      obtain ⟨m, hl, hk⟩ := node g d n hn
      exact hk.2.2.2 i (by rw [hl.2.2.2]; exact hi)
    · intro p hp
      obtain ⟨q, hq, e, hk⟩ := forall₂_left h.converters hp
      obtain ⟨ha, hb⟩ := h2 q hq
      rw [e] at ha
      refine ⟨ha, fun r hr => ?_⟩
      have : r.1 ∈ q.2.srcRatios.map Prod.fst := by rw [hk]; exact List.mem_map_of_mem hr
      obtain ⟨r', hr', e'⟩ := List.mem_map.mp this
      have := hb r' hr'
      rwa [e, e'] at this
  · intro hk
    constructor
    · intro p hp q hq
      obtain ⟨⟨g, net⟩, hg, e, hn⟩ := forall₂_right h.networks hp
      obtain ⟨⟨d, n⟩, hd, e', hl⟩ := forall₂_right hn hq
      have hn : HasNode s g d n := ⟨net, hg, hd⟩
      dsimp only at e e' hl
      rw [e, e']
      exact ⟨fun i hi => hk.consumptions g d n hn i (by rw [← hl.1]; exact hi),
        fun i hi => hk.productions g d n hn i (by rw [← hl.2.1]; exact hi),
        fun i hi => hk.storages g d n hn i (by rw [← hl.2.2.1]; exact hi),
        fun i hi => hk.links g d n hn i (by rw [← hl.2.2.2]; exact hi)⟩
    · intro q hq
      obtain ⟨p, hp, e, hs⟩ := forall₂_right h.converters hq
      rw [e]
      refine ⟨(hk.converters p hp).1, fun r hr => ?_⟩
      have : r.1 ∈ p.2.srcRatios.map Prod.fst := by rw [← hs]; exact List.mem_map_of_mem hr
      obtain ⟨r', hr', e'⟩ := List.mem_map.mp this
      rw [← e']
      exact (hk.converters p hp).2 r' hr'

theorem SameShape.read {s : Study} {ts : LPTimeStep Var} (h : SameShape s ts) (hs : Dictionaries s) (x : Var → ℚ) :
    (LPTimeStep.fromJson (lpStepJson x ts)).1 = .ok (ts.received x) := by
  refine LPTimeStep.read x ts ?_ ?_ ?_
  · rw [forall₂_fst h.networks fun a b hab => hab.1]; exact hs.networks
  · intro q hq
    obtain ⟨p, hp, e, hn⟩ := forall₂_right h.networks hq
    rw [forall₂_fst hn fun a b hab => hab.1]
    exact hs.nodes p hp
  · rw [forall₂_fst h.converters fun a b hab => hab.1]; exact hs.converters

theorem message_read {s : Study} (hs : Dictionaries s) {l : List (LPTimeStep Var)} (h : ∀ ts ∈ l, SameShape s ts)
    {ty : Types} (hk : KnownTypes ty s) (x : Var → ℚ) :
    ∃ j, (message ty x l).wire = some j ∧ readSteps j = .ok (l.map (LPTimeStep.received x)) := by
  refine ⟨.arr (l.map (lpStepJson x)), ?_, ?_⟩
  · have := wireAll_map (l := l) (f := fun ts => convert (ts.tree ty x)) (g := lpStepJson x) fun ts hts =>
      LPTimeStep.wire_tree x (((h ts hts).known ty).mpr hk)
    simp only [message, convert, convertAll_eq, List.map_map, Function.comp_def, wire, this, Option.map_some]
  · simp only [readSteps]
    rw [mapMut_ok, List.forall₂_map_left_iff, List.forall₂_map_right_iff, List.forall₂_same]
    exact fun ts hts => (h ts hts).read hs x

theorem solveBatchTyped_eq {s : Study} (hs : Dictionaries s) {ty : Types} (hk : KnownTypes ty s) (solver : Solver)
    (k : ℕ) : solveBatchTyped ty solver s k = solveBatch solver s k := by
  unfold solveBatchTyped solveBatch
  cases hb : buildAll s k with
  | error e => rfl
  | ok b =>
    obtain ⟨j, hj, hr⟩ := message_read hs (buildAll_shape hs hb).2 hk (solver b.2)
    simp [bind, Except.bind, hj, hr, pure, Except.pure]

/-- the only way the types of the numbers matter -/
theorem solveBatchTyped_error {s : Study} (hs : Dictionaries s) (hd : DistinctSources s) (hh : 0 < s.horizon)
    {ty : Types} (hk : ¬ KnownTypes ty s) (solver : Solver) {k : ℕ} {r : List (LPTimeStep ℚ)}
    (h : solveBatch solver s k = .ok r) : solveBatchTyped ty solver s k = .error .typeError := by
  unfold solveBatch at h
  rw [except_bind_ok] at h
  obtain ⟨b, hb, -⟩ := h
  have hshape := buildAll_shape hs hb
  have hw : (message ty (solver b.2) b.1).wire = none := by
    rw [← Option.not_isSome_iff_eq_none]
    intro hw
    obtain ⟨ts, hts⟩ : ∃ ts, ts ∈ b.1 := List.exists_mem_of_length_pos (by rw [hshape.1]; exact hh)
    apply hk
    rw [← (hshape.2 ts hts).known ty]
    simp only [message, convert, convertAll_eq, wire, Option.isSome_map, wireAll_isSome, List.forall_mem_map] at hw
    refine LPTimeStep.wire_tree_only ?_ (hw ts hts)
    intro q hq
    obtain ⟨p, hp, e, hsrc⟩ := forall₂_right (hshape.2 ts hts).converters hq
    have := hd p hp
    rw [show (fun q : List String × NumVal => joinKey q.1) = joinKey ∘ Prod.fst from rfl, ← List.map_map] at this
    rw [show (fun q : List String × ℚ => joinKey q.1) = joinKey ∘ Prod.fst from rfl, ← List.map_map, hsrc]
    exact this
  simp [solveBatchTyped, hb, bind, Except.bind, hw]

end Hadar
