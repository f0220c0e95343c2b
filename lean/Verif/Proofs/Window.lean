import Verif.Spec.Window
import Verif.Spec.Moments
import Verif.Proofs.Sensitivity
import Verif.Proofs.Energy

/-!
# Dispatches, one step at a time
-/

namespace Hadar

open Spec

/-- two dispatches do the same at two steps -/
structure AgreeAt (D : Dispatch) (t : ℕ) (D' : Dispatch) (t' : ℕ) : Prop where
  lol : ∀ g d i, D.lol g d i t = D'.lol g d i t'
  prod : ∀ g d i, D.prod g d i t = D'.prod g d i t'
  cap : ∀ g d i, D.cap g d i t = D'.cap g d i t'
  fin : ∀ g d i, D.fin g d i t = D'.fin g d i t'
  fout : ∀ g d i, D.fout g d i t = D'.fout g d i t'
  link : ∀ g d i, D.link g d i t = D'.link g d i t'
  convSrc : ∀ c p, D.convSrc c p t = D'.convSrc c p t'
  convDest : ∀ c, D.convDest c t = D'.convDest c t'

theorem AgreeAt.symm {D D' : Dispatch} {t t' : ℕ} (h : AgreeAt D t D' t') : AgreeAt D' t' D t :=
  ⟨fun _ _ _ => (h.lol _ _ _).symm, fun _ _ _ => (h.prod _ _ _).symm, fun _ _ _ => (h.cap _ _ _).symm,
    fun _ _ _ => (h.fin _ _ _).symm, fun _ _ _ => (h.fout _ _ _).symm, fun _ _ _ => (h.link _ _ _).symm,
    fun _ _ => (h.convSrc _ _).symm, fun _ => (h.convDest _).symm⟩

/-- what a step asks of a dispatch; `B` is the level of the first storage of each node before the step -/
structure StepOk (s : Study) (k t : ℕ) (D : Dispatch) (B : String → String → Storage → ℚ) : Prop where
  consumptions : ∀ g d n, HasNode s g d n → ∀ i c, n.consumptions[i]? = some c →
    0 ≤ D.lol g d i t ∧ D.lol g d i t ≤ val c.quantity k t
  productions : ∀ g d n, HasNode s g d n → ∀ i c, n.productions[i]? = some c →
    0 ≤ D.prod g d i t ∧ D.prod g d i t ≤ val c.quantity k t
  storages : ∀ g d n, HasNode s g d n → ∀ i c, n.storages[i]? = some c →
    (0 ≤ D.cap g d i t ∧ D.cap g d i t ≤ val c.capacity k t) ∧
    (0 ≤ D.fin g d i t ∧ D.fin g d i t ≤ val c.flowIn k t) ∧
    (0 ≤ D.fout g d i t ∧ D.fout g d i t ≤ val c.flowOut k t)
  links : ∀ g d n, HasNode s g d n → ∀ i c, n.links[i]? = some c →
    0 ≤ D.link g d i t ∧ D.link g d i t ≤ val c.quantity k t
  convSrc : ∀ p ∈ s.converters, ∀ g d r, ([g, d], r) ∈ p.2.srcRatios →
    0 ≤ D.convSrc p.1 (g, d) t ∧ (val r k t ≠ 0 → D.convSrc p.1 (g, d) t ≤ fval p.2.max k t / val r k t)
  convDest : ∀ p ∈ s.converters, 0 ≤ D.convDest p.1 t ∧ D.convDest p.1 t ≤ fval p.2.max k t
  balance : ∀ g d n, HasNode s g d n → incoming s D g d n t + selfFlow D g d n t = outgoing s k D g d n t
  evolves : ∀ g d n, HasNode s g d n → ∀ c, n.storages.head? = some c →
    D.cap g d 0 t = B g d c + val c.eff k t * D.fin g d 0 t - D.fout g d 0 t
  ratios : ∀ p ∈ s.converters, ∀ g d r, ([g, d], r) ∈ p.2.srcRatios → D.convSrc p.1 (g, d) t * val r k t = D.convDest p.1 t

/-- levels before a step -/
def levelsBefore (D : Dispatch) (t : ℕ) (g d : String) (c : Storage) : ℚ := levelBefore D g d 0 c.initCapacity t

theorem codeFeasible_steps {s : Study} {k : ℕ} {D : Dispatch} :
    CodeFeasible s k D ↔ ∀ t < s.horizon, StepOk s k t D (levelsBefore D t) := by
  constructor
  · intro h t ht
    exact ⟨fun g d n hn i c hc => h.bounds.consumptions g d n hn i c hc t ht, fun g d n hn i c hc => h.bounds.productions g d n hn i c hc t ht,
      fun g d n hn i c hc => h.bounds.storages g d n hn i c hc t ht, fun g d n hn i c hc => h.bounds.links g d n hn i c hc t ht,
      fun p hp g d r hr => h.bounds.convSrc p hp g d r hr t ht, fun p hp => h.bounds.convDest p hp t ht,
      fun g d n hn => h.balance g d n hn t ht, fun g d n hn c hc => h.storages g d n hn c hc t ht,
      fun p hp g d r hr => h.ratios p hp g d r hr t ht⟩
  · intro h
    exact ⟨⟨fun g d n hn i c hc t ht => (h t ht).consumptions g d n hn i c hc, fun g d n hn i c hc t ht => (h t ht).productions g d n hn i c hc,
      fun g d n hn i c hc t ht => (h t ht).storages g d n hn i c hc, fun g d n hn i c hc t ht => (h t ht).links g d n hn i c hc,
      fun p hp g d r hr t ht => (h t ht).convSrc p hp g d r hr, fun p hp t ht => (h t ht).convDest p hp⟩,
      fun g d n hn t ht => (h t ht).balance g d n hn, fun g d n hn c hc t ht => (h t ht).evolves g d n hn c hc,
      fun p hp g d r hr t ht => (h t ht).ratios p hp g d r hr⟩

/-! ### Two studies with the same data at two steps -/

theorem forall₂_symm {α β : Type} {R : α → β → Prop} {S : β → α → Prop} (hRS : ∀ a b, R a b → S b a) {l : List α} {l' : List β}
    (h : List.Forall₂ R l l') : List.Forall₂ S l' l := by
  induction h with
  | nil => exact .nil
  | cons h _ ih => exact .cons (hRS _ _ h) ih

theorem NodeAtStep.symm {k t k' t' : ℕ} {n n' : InputNode} (h : NodeAtStep k t k' t' n n') : NodeAtStep k' t' k t n' n :=
  ⟨forall₂_symm (fun _ _ h => ⟨h.1.symm, h.2.symm⟩) h.consumptions, forall₂_symm (fun _ _ h => ⟨h.1.symm, h.2.symm⟩) h.productions,
    forall₂_symm (fun _ _ h => ⟨h.1.symm, h.2.1.symm, h.2.2.1.symm, h.2.2.2.1.symm, h.2.2.2.2.symm⟩) h.storages,
    forall₂_symm (fun _ _ h => ⟨h.1.symm, h.2.1.symm, h.2.2.symm⟩) h.links⟩

theorem ConverterAtStep.symm {k t k' t' : ℕ} {c c' : Converter} (h : ConverterAtStep k t k' t' c c') : ConverterAtStep k' t' k t c' c :=
  ⟨forall₂_symm (fun _ _ h => ⟨h.1.symm, h.2.symm⟩) h.sources, h.destNetwork.symm, h.destNode.symm, h.cost.symm, h.max.symm⟩

variable {s s' : Study} {k k' t t' : ℕ} {D D' : Dispatch}

theorem SameStep.symm (h : SameStep s k t s' k' t') : SameStep s' k' t' s k t :=
  ⟨forall₂_symm (fun _ _ h => ⟨h.1.symm, forall₂_symm (fun _ _ h => ⟨h.1.symm, h.2.symm⟩) h.2⟩) h.networks,
    forall₂_symm (fun _ _ h => ⟨h.1.symm, h.2.symm⟩) h.converters⟩

theorem SameStep.node (h : SameStep s k t s' k' t') {g d : String} {n' : InputNode} (hn : HasNode s' g d n') :
    ∃ n, HasNode s g d n ∧ NodeAtStep k t k' t' n n' := by
  obtain ⟨net', hg, hd⟩ := hn
  obtain ⟨⟨g0, net⟩, hg0, e, hnet⟩ := forall₂_mem_right h.networks hg
  obtain ⟨⟨d0, n⟩, hd0, e', hN⟩ := forall₂_mem_right hnet hd
  dsimp only at e e' hd0
  subst e e'
  exact ⟨n, ⟨net, hg0, hd0⟩, hN⟩

theorem imports_step (h : SameStep s k t s' k' t') (ha : AgreeAt D t D' t') (g d : String) :
    imports s D g d t = imports s' D' g d t' := by
  unfold imports
  rw [sumL_filter, sumL_filter]
  apply sumL_rel h.networks
  rintro ⟨g1, net⟩ _ ⟨g2, net'⟩ _ ⟨e, hnet⟩
  dsimp only at e hnet ⊢
  subst e
  congr 1
  apply sumL_rel hnet
  rintro ⟨d1, n⟩ _ ⟨d2, n'⟩ _ ⟨e, hN⟩
  dsimp only at e hN ⊢
  subst e
  apply sumI_rel hN.links
  intro i l l' _ _ e
  rw [e.1, ha.link]

theorem fromConverters_step (h : SameStep s k t s' k' t') (ha : AgreeAt D t D' t') (g d : String) :
    fromConverters s D g d t = fromConverters s' D' g d t' := by
  unfold fromConverters
  apply sumL_rel h.converters
  rintro ⟨x, c⟩ _ ⟨y, c'⟩ _ ⟨e, hC⟩
  dsimp only at e hC ⊢
  subst e
  rw [hC.destNetwork, hC.destNode, ha.convDest]

theorem toConverters_step (h : SameStep s k t s' k' t') (ha : AgreeAt D t D' t') (g d : String) :
    toConverters s D g d t = toConverters s' D' g d t' := by
  unfold toConverters
  apply sumL_rel h.converters
  rintro ⟨x, c⟩ _ ⟨y, c'⟩ _ ⟨e, hC⟩
  dsimp only at e hC ⊢
  subst e
  apply sumL_rel hC.sources
  intro q _ q' _ e
  rw [e.1, ha.convSrc]

theorem StepOk.transport {B B' : String → String → Storage → ℚ} (h : SameStep s k t s' k' t') (ha : AgreeAt D t D' t')
    (hB : ∀ g d n n', HasNode s g d n → HasNode s' g d n' → ∀ c c', n.storages[0]? = some c → n'.storages[0]? = some c' →
      B g d c = B' g d c') (hs : StepOk s k t D B) : StepOk s' k' t' D' B' where
  consumptions := fun g d n' hn' i c' hc' => by
    obtain ⟨n, hn, hN⟩ := h.node hn'
    obtain ⟨c, hc, h1, h2⟩ := forall₂_get_right hN.consumptions hc'
    rw [← ha.lol, ← h2]
    exact hs.consumptions g d n hn i c hc
  productions := fun g d n' hn' i c' hc' => by
    obtain ⟨n, hn, hN⟩ := h.node hn'
    obtain ⟨c, hc, h1, h2⟩ := forall₂_get_right hN.productions hc'
    rw [← ha.prod, ← h2]
    exact hs.productions g d n hn i c hc
  storages := fun g d n' hn' i c' hc' => by
    obtain ⟨n, hn, hN⟩ := h.node hn'
    obtain ⟨c, hc, h1, h2, h3, -⟩ := forall₂_get_right hN.storages hc'
    rw [← ha.cap, ← ha.fin, ← ha.fout, ← h1, ← h2, ← h3]
    exact hs.storages g d n hn i c hc
  links := fun g d n' hn' i c' hc' => by
    obtain ⟨n, hn, hN⟩ := h.node hn'
    obtain ⟨c, hc, h0, h1, h2⟩ := forall₂_get_right hN.links hc'
    rw [← ha.link, ← h2]
    exact hs.links g d n hn i c hc
  convSrc := fun p' hp' g d r' hr' => by
    obtain ⟨p, hp, e, hC⟩ := forall₂_mem_right h.converters hp'
    obtain ⟨⟨key, r⟩, hq, e', hv⟩ := forall₂_mem_right hC.sources hr'
    dsimp only at e' hv
    subst e'
    rw [← e, ← ha.convSrc, ← hv, ← hC.max]
    exact hs.convSrc p hp g d r hq
  convDest := fun p' hp' => by
    obtain ⟨p, hp, e, hC⟩ := forall₂_mem_right h.converters hp'
    rw [← e, ← ha.convDest, ← hC.max]
    exact hs.convDest p hp
  balance := fun g d n' hn' => by
    obtain ⟨n, hn, hN⟩ := h.node hn'
    have e := hs.balance g d n hn
    have h1 : incoming s D g d n t = incoming s' D' g d n' t' := by
      unfold incoming
      rw [imports_step h ha, fromConverters_step h ha,
        sumI_rel hN.productions (g := fun _ i => D'.prod g d i t') (fun _ _ _ _ _ _ => ha.prod _ _ _),
        sumI_rel hN.storages (g := fun _ i => D'.fout g d i t') (fun _ _ _ _ _ _ => ha.fout _ _ _)]
    have h2 : outgoing s k D g d n t = outgoing s' k' D' g d n' t' := by
      unfold outgoing
      rw [toConverters_step h ha,
        sumI_rel hN.storages (g := fun _ i => D'.fin g d i t') (fun _ _ _ _ _ _ => ha.fin _ _ _),
        sumI_rel hN.links (g := fun _ i => D'.link g d i t') (fun _ _ _ _ _ _ => ha.link _ _ _),
        sumI_rel hN.consumptions (g := fun (c : Consumption) i => val c.quantity k' t' - D'.lol g d i t') (by
          rintro i c c' - - ⟨-, h⟩
          rw [h, ha.lol])]
    have h3 : selfFlow D g d n t = selfFlow D' g d n' t' := by
      unfold selfFlow
      apply sumI_rel hN.links
      rintro i l l' - - ⟨e, -⟩
      rw [e, ha.link]
    rw [← h1, ← h2, ← h3]
    exact e
  evolves := fun g d n' hn' c' hc' => by
    obtain ⟨n, hn, hN⟩ := h.node hn'
    rw [List.head?_eq_getElem?] at hc'
    obtain ⟨c, hc, -, -, -, -, h5⟩ := forall₂_get_right hN.storages hc'
    have e := hs.evolves g d n hn c (by rw [List.head?_eq_getElem?]; exact hc)
    rw [← ha.cap, ← ha.fin, ← ha.fout, ← h5, ← hB g d n n' hn hn' c c' hc hc']
    exact e
  ratios := fun p' hp' g d r' hr' => by
    obtain ⟨p, hp, e, hC⟩ := forall₂_mem_right h.converters hp'
    obtain ⟨⟨key, r⟩, hq, e', hv⟩ := forall₂_mem_right hC.sources hr'
    dsimp only at e' hv
    subst e'
    rw [← e, ← ha.convSrc, ← ha.convDest, ← hv]
    exact hs.ratios p hp g d r hq

theorem SameStep.stepCost (h : SameStep s k t s' k' t') (ha : AgreeAt D t D' t') : stepCost s k D t = stepCost s' k' D' t' := by
  unfold Spec.stepCost
  congr 1
  · apply sumL_rel h.networks
    rintro ⟨g, net⟩ _ ⟨g', net'⟩ _ ⟨e, hnet⟩
    dsimp only at e hnet ⊢
    subst e
    apply sumL_rel hnet
    rintro ⟨d, n⟩ _ ⟨d', n'⟩ _ ⟨e, hN⟩
    dsimp only at e hN ⊢
    subst e
    unfold nodeCost
    rw [sumI_rel hN.consumptions (g := fun (c : Consumption) i => val c.cost k' t' * D'.lol g d i t')
        (fun i c c' _ _ h => by rw [h.1, ha.lol]),
      sumI_rel hN.productions (g := fun (c : Production) i => val c.cost k' t' * D'.prod g d i t')
        (fun i c c' _ _ h => by rw [h.1, ha.prod]),
      sumI_rel hN.storages (g := fun (c : Storage) i => val c.cost k' t' * D'.cap g d i t')
        (fun i c c' _ _ h => by rw [h.2.2.2.1, ha.cap]),
      sumI_rel hN.links (g := fun (c : Link) i => val c.cost k' t' * D'.link g d i t')
        (fun i c c' _ _ h => by rw [h.2.1, ha.link])]
  · apply sumL_rel h.converters
    rintro p _ p' _ ⟨e, hC⟩
    rw [← e, hC.cost, ha.convDest]

/-! ### Windows -/

variable {a : ℕ}

theorem Spec.Window.step (h : Window a s k s' k') (ht : t < s'.horizon) : SameStep s k (a + t) s' k' t where
  networks := h.networks.imp fun _ _ h => ⟨h.1, h.2.imp fun _ _ h => ⟨h.1, {
    consumptions := h.2.consumptions.imp fun _ _ h => ⟨(h.1 t ht).symm, (h.2 t ht).symm⟩
    productions := h.2.productions.imp fun _ _ h => ⟨(h.1 t ht).symm, (h.2 t ht).symm⟩
    storages := h.2.storages.imp fun _ _ h => ⟨(h.1 t ht).symm, (h.2.1 t ht).symm, (h.2.2.1 t ht).symm, (h.2.2.2.1 t ht).symm,
      (h.2.2.2.2 t ht).symm⟩
    links := h.2.links.imp fun _ _ h => ⟨h.1, (h.2.1 t ht).symm, (h.2.2 t ht).symm⟩ }⟩⟩
  converters := h.converters.imp fun _ _ h => ⟨h.1, {
    sources := h.2.sources.imp fun _ _ h => ⟨h.1, (h.2 t ht).symm⟩
    destNetwork := h.2.destNetwork
    destNode := h.2.destNode
    cost := (h.2.cost t ht).symm
    max := (h.2.max t ht).symm }⟩

theorem Spec.Window.node (h : Window a s k s' k') {g d : String} {n : InputNode} (hn : HasNode s g d n) :
    ∃ n', HasNode s' g d n' ∧ NodeWindow s'.horizon a k k' n n' := by
  obtain ⟨net, hg, hd⟩ := hn
  obtain ⟨⟨g0, net'⟩, hg0, e, hnet⟩ := forall₂_mem_right (forall₂_symm (S := fun (q p : String × InputNetwork) => p.1 = q.1 ∧ List.Forall₂ (fun x y => x.1 = y.1 ∧
    NodeWindow s'.horizon a k k' x.2 y.2) p.2.nodes q.2.nodes) (fun _ _ h => h) h.networks) hg
  obtain ⟨⟨d0, n'⟩, hd0, e', hN⟩ := forall₂_mem_right (forall₂_symm (S := fun (y x : String × InputNode) => x.1 = y.1 ∧
    NodeWindow s'.horizon a k k' x.2 y.2) (fun _ _ h => h) hnet) hd
  dsimp only at e e' hd0
  subst e e'
  exact ⟨n', ⟨net', hg0, hd0⟩, hN⟩

theorem Spec.Window.nodeBack (h : Window a s k s' k') {g d : String} {n' : InputNode} (hn : HasNode s' g d n') :
    ∃ n, HasNode s g d n ∧ NodeWindow s'.horizon a k k' n n' := by
  obtain ⟨net', hg, hd⟩ := hn
  obtain ⟨⟨g0, net⟩, hg0, e, hnet⟩ := forall₂_mem_right h.networks hg
  obtain ⟨⟨d0, n⟩, hd0, e', hN⟩ := forall₂_mem_right hnet hd
  dsimp only at e e' hd0
  subst e e'
  exact ⟨n, ⟨net, hg0, hd0⟩, hN⟩

theorem shift_zero (D : Dispatch) : D.shift 0 = D := by
  unfold Dispatch.shift
  simp only [Nat.zero_add]

theorem cost_steps : cost s k D = sumL (List.range s.horizon) fun t => stepCost s k D t := rfl

theorem Spec.Window.feasible (h : Window a s k s' k') (hst : StartsFrom s s' D a) (hf : CodeFeasible s k D) :
    CodeFeasible s' k' (D.shift a) := by
  rw [codeFeasible_steps] at hf ⊢
  intro t ht
  refine (hf (a + t) (by have := h.within; omega)).transport (h.step ht) ⟨fun _ _ _ => rfl, fun _ _ _ => rfl, fun _ _ _ => rfl,
    fun _ _ _ => rfl, fun _ _ _ => rfl, fun _ _ _ => rfl, fun _ _ => rfl, fun _ => rfl⟩ ?_
  intro g d n n' hn hn' c c' hc hc'
  cases t with
  | zero => exact (hst g d n n' hn hn' 0 c c' hc hc').symm
  | succ t => rfl

theorem Spec.Window.cost (h : Window a s k s' k') (D : Dispatch) :
    cost s' k' (D.shift a) = sumL (List.range s'.horizon) fun t => stepCost s k D (a + t) := by
  rw [cost_steps]
  unfold sumL
  congr 1
  apply List.map_congr_left
  intro t ht
  rw [List.mem_range] at ht
  exact ((h.step ht).stepCost ⟨fun _ _ _ => rfl, fun _ _ _ => rfl, fun _ _ _ => rfl,
    fun _ _ _ => rfl, fun _ _ _ => rfl, fun _ _ _ => rfl, fun _ _ => rfl, fun _ => rfl⟩).symm

variable {s₁ s₂ : Study} {k₁ k₂ : ℕ} {E : Dispatch}

theorem agree_first (ht : t < a) : AgreeAt D t (Dispatch.glue a D E) t := by
  constructor <;> intros <;> simp [Dispatch.glue, ht]

theorem agree_second : AgreeAt E t (Dispatch.glue a D E) (a + t) := by
  constructor <;> intros <;> simp [Dispatch.glue]

theorem glue_feasible (h₁ : Window 0 s k s₁ k₁) (h₂ : Window s₁.horizon s k s₂ k₂) (hh : s₁.horizon + s₂.horizon = s.horizon)
    (hst₁ : SameStart s s₁) (hst₂ : StartsFrom s₁ s₂ D s₁.horizon) (hf₁ : CodeFeasible s₁ k₁ D) (hf₂ : CodeFeasible s₂ k₂ E) :
    CodeFeasible s k (Dispatch.glue s₁.horizon D E) := by
  rw [codeFeasible_steps] at hf₁ hf₂ ⊢
  intro t ht
  by_cases hlt : t < s₁.horizon
  · have hstep := h₁.step hlt
    rw [Nat.zero_add] at hstep
    refine (hf₁ t hlt).transport hstep.symm (agree_first hlt) ?_
    intro g d n n' hn hn' c c' hc hc'
    cases t with
    | zero => exact hst₁ g d n' n hn' hn 0 c' c hc' hc
    | succ t => exact (agree_first (by omega)).cap g d 0
  · obtain ⟨u, rfl⟩ : ∃ u, t = s₁.horizon + u := ⟨t - s₁.horizon, by omega⟩
    refine (hf₂ u (by omega)).transport (h₂.step (by omega)).symm agree_second ?_
    intro g d n n' hn hn' c c' hc hc'
    cases u with
    | zero =>
      obtain ⟨n₁, hn₁, hN⟩ := h₁.node hn'
      obtain ⟨c₁, hc₁, _⟩ := forall₂_get_right (forall₂_symm (S := fun _ _ => True) (fun _ _ _ => trivial) hN.storages) hc'
      have e := hst₂ g d n₁ n hn₁ hn 0 c₁ c hc₁ hc
      have e' := hst₁ g d n' n₁ hn' hn₁ 0 c' c₁ hc' hc₁
      show c.initCapacity = _
      rw [e, e']
      generalize s₁.horizon = a
      cases a with
      | zero => rfl
      | succ a => exact (agree_first (Nat.lt_succ_self a)).cap g d 0
    | succ u => exact agree_second.cap g d 0

theorem glue_cost (h₁ : Window 0 s k s₁ k₁) (h₂ : Window s₁.horizon s k s₂ k₂) (hh : s₁.horizon + s₂.horizon = s.horizon) :
    cost s k (Dispatch.glue s₁.horizon D E) = cost s₁ k₁ D + cost s₂ k₂ E := by
  rw [cost_steps, cost_steps, cost_steps, ← hh, List.range_add]
  unfold sumL
  rw [List.map_append, List.sum_append, List.map_map]
  congr 2
  · apply List.map_congr_left
    intro t ht
    rw [List.mem_range] at ht
    have hstep := h₁.step ht
    rw [Nat.zero_add] at hstep
    exact (hstep.symm.stepCost (agree_first ht)).symm
  · apply List.map_congr_left
    intro t ht
    rw [List.mem_range] at ht
    exact ((h₂.step ht).symm.stepCost agree_second).symm

theorem sumL_nonneg_of {α : Type} (l : List α) (f : α → ℚ) (h : ∀ x ∈ l, 0 ≤ f x) : 0 ≤ sumL l f := by
  exact sumL_nonneg' h

theorem sumI_nonneg_of {α : Type} (l : List α) (f : α → ℕ → ℚ) (h : ∀ i x, l[i]? = some x → 0 ≤ f x i) : 0 ≤ sumI l f := by
  unfold sumI
  exact sumL_nonneg_of _ _ fun p hp => h _ _ (mem_zipIdx_iff.mp hp)

theorem stepCost_nonneg (hc : CostsNonneg s k) (hf : CodeFeasible s k D) (ht : t < s.horizon) : 0 ≤ stepCost s k D t := by
  unfold stepCost
  apply add_nonneg
  · refine sumL_nonneg_of _ _ fun p hp => sumL_nonneg_of _ _ fun q hq => ?_
    have hn : HasNode s p.1 q.1 q.2 := ⟨p.2, hp, hq⟩
    unfold nodeCost
    refine add_nonneg (add_nonneg (add_nonneg ?_ ?_) ?_) ?_ <;> refine sumI_nonneg_of _ _ fun i x hx => mul_nonneg ?_ ?_
    · exact hc.consumptions _ _ _ hn x (List.mem_of_getElem? hx) t ht
    · exact (hf.bounds.consumptions _ _ _ hn i x hx t ht).1
    · exact hc.productions _ _ _ hn x (List.mem_of_getElem? hx) t ht
    · exact (hf.bounds.productions _ _ _ hn i x hx t ht).1
    · exact hc.storages _ _ _ hn x (List.mem_of_getElem? hx) t ht
    · exact (hf.bounds.storages _ _ _ hn i x hx t ht).1.1
    · exact hc.links _ _ _ hn x (List.mem_of_getElem? hx) t ht
    · exact (hf.bounds.links _ _ _ hn i x hx t ht).1
  · exact sumL_nonneg_of _ _ fun p hp => mul_nonneg (hc.converters p hp t ht) (hf.bounds.convDest p hp t ht).1

/-- the first steps of a study -/
def firstSteps (s : Study) (a : ℕ) : Study := { s with horizon := a }

theorem firstSteps_window (ha : a ≤ s.horizon) : Window 0 s k (firstSteps s a) k where
  within := by simpa [firstSteps] using ha
  networks := List.forall₂_same.mpr fun p _ => ⟨rfl, List.forall₂_same.mpr fun q _ => ⟨rfl, by
    constructor <;> refine List.forall₂_same.mpr fun x _ => ?_
    · exact ⟨fun t _ => by rw [Nat.zero_add], fun t _ => by rw [Nat.zero_add]⟩
    · exact ⟨fun t _ => by rw [Nat.zero_add], fun t _ => by rw [Nat.zero_add]⟩
    · exact ⟨fun t _ => by rw [Nat.zero_add], fun t _ => by rw [Nat.zero_add], fun t _ => by rw [Nat.zero_add],
        fun t _ => by rw [Nat.zero_add], fun t _ => by rw [Nat.zero_add]⟩
    · exact ⟨rfl, fun t _ => by rw [Nat.zero_add], fun t _ => by rw [Nat.zero_add]⟩⟩⟩
  converters := List.forall₂_same.mpr fun p _ => ⟨rfl, List.forall₂_same.mpr fun x _ => ⟨rfl, fun t _ => by rw [Nat.zero_add]⟩, rfl, rfl,
    fun t _ => by rw [Nat.zero_add], fun t _ => by rw [Nat.zero_add]⟩

end Hadar
