import Verif.Spec.Place
import Verif.Proofs.Extension
import Verif.Proofs.Rename

/-!
# Nodes put in other networks: lemmas
-/

namespace Hadar

open Spec

section

variable {s s' : Study} {k : ℕ} {place : Place} {D : Dispatch} (h : Moved place s s') (hi : StudyInv s) (hi' : StudyInv s')

include h hi' in
theorem Spec.Moved.node {g d : String} {n n' : InputNode} (hn : HasNode s g d n)
    (hn' : HasNode s' (place (g, d)).1 (place (g, d)).2 n') : n' = place.inNode g n :=
  hasNode_unique hi' hn' (h.nodes g d n hn)

include h hi hi' in
theorem Spec.Moved.sumN {f f' : String → String → InputNode → ℚ}
    (hf : ∀ g d n, HasNode s g d n → f' (place (g, d)).1 (place (g, d)).2 (place.inNode g n) = f g d n) :
    Hadar.sumN s' f' = Hadar.sumN s f := by
  rw [sumN_nodesOf, sumN_nodesOf]
  have h1 := sumL_keyed (l := (nodesOf s).map fun a => (place a.1, a)) (l' := (nodesOf s').map fun a => (a.1, a))
    (f := fun p => f p.2.1.1 p.2.1.2 p.2.2) (f' := fun p => f' p.2.1.1 p.2.1.2 p.2.2) ?_ ?_ ?_ ?_ ?_
  · rw [sumL_map, sumL_map] at h1
    exact h1.symm
  · have := nodup_nodesOf hi
    rw [List.map_map]
    have e : ((nodesOf s).map (Prod.fst ∘ fun a => (place a.1, a))) = ((nodesOf s).map Prod.fst).map place := by
      rw [List.map_map]; rfl
    rw [e]
    refine List.Nodup.map_on ?_ this
    intro a ha b hb e
    obtain ⟨⟨⟨g, d⟩, n⟩, h1, rfl⟩ := List.mem_map.mp ha
    obtain ⟨⟨⟨g2, d2⟩, n2⟩, h2, rfl⟩ := List.mem_map.mp hb
    exact h.apart g d n g2 d2 n2 (mem_nodesOf.mp h1) (mem_nodesOf.mp h2) e
  · rw [List.map_map]
    exact nodup_nodesOf hi'
  · intro p hp
    obtain ⟨⟨⟨g, d⟩, n⟩, h1, rfl⟩ := List.mem_map.mp hp
    exact ⟨_, List.mem_map.mpr ⟨(place (g, d), place.inNode g n), mem_nodesOf.mpr (h.nodes g d n (mem_nodesOf.mp h1)), rfl⟩, rfl⟩
  · intro p hp
    obtain ⟨⟨⟨g', d'⟩, n'⟩, h1, rfl⟩ := List.mem_map.mp hp
    obtain ⟨g, d, n, hn, e⟩ := h.onto g' d' n' (mem_nodesOf.mp h1)
    exact ⟨_, List.mem_map.mpr ⟨((g, d), n), mem_nodesOf.mpr hn, rfl⟩, e⟩
  · intro p hp q hq e
    obtain ⟨⟨⟨g, d⟩, n⟩, h1, rfl⟩ := List.mem_map.mp hp
    obtain ⟨⟨⟨g', d'⟩, n'⟩, h2, rfl⟩ := List.mem_map.mp hq
    replace h1 := mem_nodesOf.mp h1
    replace h2 := mem_nodesOf.mp h2
    dsimp only at e h1 h2 ⊢
    have e1 : g' = (place (g, d)).1 := by rw [e]
    have e2 : d' = (place (g, d)).2 := by rw [e]
    subst e1 e2
    rw [h.node hi' h1 h2, hf g d n h1]

include h in
theorem Spec.Moved.sumC (f : String × Converter → ℚ) :
    sumL s'.converters f = sumL s.converters fun p => f (p.1, place.converter p.2) := by
  rw [h.converters, sumL_map]

include h hi in
theorem Spec.Moved.dest {g d g₂ d₂ : String} {n n₂ : InputNode} (hn : HasNode s g d n) (hn₂ : HasNode s g₂ d₂ n₂) {l : Link}
    (hl : l ∈ n.links) :
    ((place (g, d)).1 = (place (g₂, d₂)).1 ∧ (place (g, l.dest)).2 = (place (g₂, d₂)).2) ↔ (g = g₂ ∧ l.dest = d₂) := by
  constructor
  · rintro ⟨e1, e2⟩
    rw [← h.together g d n hn l hl] at e1
    obtain ⟨net, hg, hd⟩ := hn
    obtain ⟨⟨d3, n3⟩, hm, e3⟩ := List.mem_map.mp (hi.links g net hg d n hd l hl)
    dsimp only at e3
    subst e3
    exact Prod.mk.inj (h.apart g _ n3 g₂ d₂ n₂ ⟨net, hg, hm⟩ hn₂ (Prod.ext e1 e2))
  · rintro ⟨rfl, rfl⟩
    exact ⟨(h.together g d n hn l hl).symm, rfl⟩

include h hi hi' in
theorem imports_place {g d : String} {n : InputNode} (hn : HasNode s g d n) (t : ℕ) :
    imports s' D (place (g, d)).1 (place (g, d)).2 t = imports s (place.dispatch D) g d t := by
  rw [imports_sumN, imports_sumN]
  apply h.sumN hi hi'
  intro g2 d2 n2 hn2
  simp only [Place.inNode, sumI_map']
  have e1 : ∀ (p : Prop) [Decidable p] (q : Link → Prop) [DecidablePred q] (x : ℕ → ℚ),
      (if p then sumI n2.links fun l i => if q l then x i else 0 else 0) = sumI n2.links fun l i => if p ∧ q l then x i else 0 := by
    intro p _ q _ x
    by_cases hp : p
    · simp [hp]
    · simp [hp, sumI_zero]
  rw [e1 _ (fun l => (place (g2, l.dest)).2 = (place (g, d)).2), e1 _ (fun l => l.dest = d)]
  apply sumI_congr
  intro l i hl
  simp only [h.dest hi hn2 hn (mem_of_getElem?_some hl)]
  rfl

include h hi in
theorem from_place (hcomp : CompleteConverters s) {g d : String} {n : InputNode} (hn : HasNode s g d n) (t : ℕ) :
    fromConverters s' D (place (g, d)).1 (place (g, d)).2 t = fromConverters s (place.dispatch D) g d t := by
  unfold fromConverters
  rw [h.sumC]
  apply sumL_congr
  intro p hp
  have : ((place.converter p.2).destNetwork = (place (g, d)).1 ∧ (place.converter p.2).destNode = (place (g, d)).2) ↔
      (p.2.destNetwork = g ∧ p.2.destNode = d) := by
    constructor
    · rintro ⟨e1, e2⟩
      rcases (hi.convs p hp).dest with ⟨_, _, h1, _⟩ | ⟨n2, h1⟩
      · exact absurd h1 (hcomp p hp).1
      · exact Prod.mk.inj (h.apart _ _ n2 g d n h1 hn (Prod.ext e1 e2))
    · rintro ⟨rfl, rfl⟩
      exact ⟨rfl, rfl⟩
  simp only [this]
  rfl

include h hi in
theorem to_place {g d : String} {n : InputNode} (hn : HasNode s g d n) (t : ℕ) :
    toConverters s' D (place (g, d)).1 (place (g, d)).2 t = toConverters s (place.dispatch D) g d t := by
  unfold toConverters
  rw [h.sumC]
  apply sumL_congr
  intro p hp
  simp only [Place.converter, sumL_map]
  apply sumL_congr
  intro q hq
  obtain ⟨g2, d2, n2, e1, hn2⟩ := (hi.convs p hp).sources _ (List.mem_map.mpr ⟨_, hq, rfl⟩)
  have : place.key q.1 = [(place (g, d)).1, (place (g, d)).2] ↔ q.1 = [g, d] := by
    rw [e1]
    simp only [Place.key, List.cons.injEq, and_true]
    constructor
    · rintro ⟨e2, e3⟩
      exact Prod.mk.inj (h.apart _ _ n2 g d n hn2 hn (Prod.ext e2 e3))
    · rintro ⟨rfl, rfl⟩
      exact ⟨rfl, rfl⟩
  simp only [this]
  rfl

include h hi hi' in
theorem incoming_place (hcomp : CompleteConverters s) {g d : String} {n : InputNode} (hn : HasNode s g d n) (t : ℕ) :
    incoming s' D (place (g, d)).1 (place (g, d)).2 (place.inNode g n) t = incoming s (place.dispatch D) g d n t := by
  unfold incoming
  rw [imports_place h hi hi' hn, from_place h hi hcomp hn]
  rfl

include h hi in
theorem outgoing_place {g d : String} {n : InputNode} (hn : HasNode s g d n) (t : ℕ) :
    outgoing s' k D (place (g, d)).1 (place (g, d)).2 (place.inNode g n) t = outgoing s k (place.dispatch D) g d n t := by
  unfold outgoing
  rw [to_place h hi hn]
  simp only [Place.inNode, sumI_map']
  rfl

include h hi in
theorem selfFlow_place {g d : String} {n : InputNode} (hn : HasNode s g d n) (t : ℕ) :
    selfFlow D (place (g, d)).1 (place (g, d)).2 (place.inNode g n) t = selfFlow (place.dispatch D) g d n t := by
  unfold selfFlow
  simp only [Place.inNode, sumI_map']
  apply sumI_congr
  intro l i hl
  have := h.dest hi hn hn (mem_of_getElem?_some hl)
  simp only [true_and] at this
  simp only [this]
  rfl

include h hi hi' in
theorem cost_place : cost s' k D = cost s k (place.dispatch D) := by
  unfold cost
  rw [h.horizon]
  apply sumL_congr
  intro t _
  congr 1
  · refine h.sumN hi hi' (f := fun g d n => nodeCost k (place.dispatch D) g d n t) (f' := fun g d n => nodeCost k D g d n t) ?_
    intro g d n _
    simp only [nodeCost, Place.inNode, sumI_map']
    rfl
  · rw [h.sumC]
    rfl

include h in
/-- what holds of the nodes of `s'` holds of the nodes of `s` at their new places -/
theorem Spec.Moved.forall (hi' : StudyInv s') {P : String → String → InputNode → Prop} :
    (∀ g d n, HasNode s' g d n → P g d n) ↔
      ∀ g d n, HasNode s g d n → P (place (g, d)).1 (place (g, d)).2 (place.inNode g n) := by
  constructor
  · exact fun hp g d n hn => hp _ _ _ (h.nodes g d n hn)
  · intro hp g' d' n' hn'
    obtain ⟨g, d, n, hn, e⟩ := h.onto g' d' n' hn'
    have e1 : g' = (place (g, d)).1 := by rw [e]
    have e2 : d' = (place (g, d)).2 := by rw [e]
    subst e1 e2
    rw [h.node hi' hn hn']
    exact hp g d n hn

include h in
theorem Spec.Moved.forallC {P : String × Converter → Prop} :
    (∀ p ∈ s'.converters, P p) ↔ ∀ p ∈ s.converters, P (p.1, place.converter p.2) := by
  rw [h.converters]
  simp only [List.mem_map]
  constructor
  · exact fun hp p hm => hp _ ⟨p, hm, rfl⟩
  · rintro hp _ ⟨p, hm, rfl⟩
    exact hp p hm

include hi in
theorem forallSrc {p : String × Converter} (hp : p ∈ s.converters) {P : String → String → NumVal → Prop} :
    (∀ g d r, ([g, d], r) ∈ (place.converter p.2).srcRatios → P g d r) ↔
      ∀ g d r, ([g, d], r) ∈ p.2.srcRatios → P (place (g, d)).1 (place (g, d)).2 r := by
  simp only [Place.converter, List.mem_map]
  constructor
  · exact fun hq g d r hm => hq _ _ _ ⟨_, hm, rfl⟩
  · rintro hq g d r ⟨⟨x, r'⟩, hm, e⟩
    obtain ⟨g2, d2, n2, e1, hn2⟩ := (hi.convs p hp).sources _ (List.mem_map.mpr ⟨_, hm, rfl⟩)
    dsimp only at e1 e
    subst e1
    simp only [Place.key, Prod.mk.injEq, List.cons.injEq, and_true] at e
    obtain ⟨⟨rfl, rfl⟩, rfl⟩ := e
    exact hq _ _ _ hm

include h hi hi' in
theorem bounds_place : Bounds s' k D ↔ Bounds s k (place.dispatch D) := by
  have hl : (∀ g d n, HasNode s' g d n → ∀ i c, n.links[i]? = some c → ∀ t < s'.horizon,
        0 ≤ D.link g d i t ∧ D.link g d i t ≤ val c.quantity k t) ↔
      (∀ g d n, HasNode s g d n → ∀ i c, n.links[i]? = some c → ∀ t < s.horizon,
        0 ≤ (place.dispatch D).link g d i t ∧ (place.dispatch D).link g d i t ≤ val c.quantity k t) := by
    rw [h.forall hi', h.horizon]
    refine forall₄_congr fun g d n _ => forall_congr' fun i => ?_
    simp only [Place.inNode, List.getElem?_map, Option.map_eq_some_iff]
    constructor
    · exact fun hp c hc t ht => hp _ ⟨c, hc, rfl⟩ t ht
    · rintro hp c ⟨c', hc, rfl⟩ t ht
      exact hp c' hc t ht
  have hs : (∀ p ∈ s'.converters, ∀ g d r, ([g, d], r) ∈ p.2.srcRatios → ∀ t < s'.horizon,
        0 ≤ D.convSrc p.1 (g, d) t ∧ (val r k t ≠ 0 → D.convSrc p.1 (g, d) t ≤ fval p.2.max k t / val r k t)) ↔
      (∀ p ∈ s.converters, ∀ g d r, ([g, d], r) ∈ p.2.srcRatios → ∀ t < s.horizon,
        0 ≤ (place.dispatch D).convSrc p.1 (g, d) t ∧
          (val r k t ≠ 0 → (place.dispatch D).convSrc p.1 (g, d) t ≤ fval p.2.max k t / val r k t)) := by
    rw [h.forallC, h.horizon]
    exact forall₂_congr fun p hp => forallSrc hi hp (P := fun g d r => ∀ t < s'.horizon,
        0 ≤ D.convSrc p.1 (g, d) t ∧ (val r k t ≠ 0 → D.convSrc p.1 (g, d) t ≤ fval p.2.max k t / val r k t))
  have hd : (∀ p ∈ s'.converters, ∀ t < s'.horizon, 0 ≤ D.convDest p.1 t ∧ D.convDest p.1 t ≤ fval p.2.max k t) ↔
      (∀ p ∈ s.converters, ∀ t < s.horizon, 0 ≤ (place.dispatch D).convDest p.1 t ∧
        (place.dispatch D).convDest p.1 t ≤ fval p.2.max k t) := by
    rw [h.forallC, h.horizon]
    rfl
  constructor
  · intro hD
    refine ⟨?_, ?_, ?_, hl.mp hD.links, hs.mp hD.convSrc, hd.mp hD.convDest⟩
    · rw [h.horizon]; exact (h.forall hi').mp hD.consumptions
    · rw [h.horizon]; exact (h.forall hi').mp hD.productions
    · rw [h.horizon]; exact (h.forall hi').mp hD.storages
  · intro hD
    refine ⟨?_, ?_, ?_, hl.mpr hD.links, hs.mpr hD.convSrc, hd.mpr hD.convDest⟩
    · rw [← h.horizon]; exact (h.forall hi').mpr hD.consumptions
    · rw [← h.horizon]; exact (h.forall hi').mpr hD.productions
    · rw [← h.horizon]; exact (h.forall hi').mpr hD.storages

include h hi in
theorem ratios_place : RatiosOk s' k D ↔ RatiosOk s k (place.dispatch D) := by
  unfold RatiosOk
  rw [h.forallC, h.horizon]
  exact forall₂_congr fun p hp => forallSrc hi hp (P := fun g d r => ∀ t < s'.horizon,
    D.convSrc p.1 (g, d) t * val r k t = D.convDest p.1 t)

theorem evolves_place (g d : String) (i : ℕ) (c : Storage) (t : ℕ) :
    Evolves k D (place (g, d)).1 (place (g, d)).2 i c t ↔ Evolves k (place.dispatch D) g d i c t := by
  cases t <;> rfl

include h hi hi' in
theorem code_place (hcomp : CompleteConverters s) : CodeFeasible s' k D ↔ CodeFeasible s k (place.dispatch D) := by
  have hb : (∀ g d n, HasNode s' g d n → ∀ t < s'.horizon, incoming s' D g d n t + selfFlow D g d n t = outgoing s' k D g d n t) ↔
      (∀ g d n, HasNode s g d n → ∀ t < s.horizon, incoming s (place.dispatch D) g d n t + selfFlow (place.dispatch D) g d n t =
        outgoing s k (place.dispatch D) g d n t) := by
    rw [h.forall hi', h.horizon]
    refine forall₄_congr fun g d n hn => forall₂_congr fun t _ => ?_
    rw [incoming_place h hi hi' hcomp hn, outgoing_place h hi hn, selfFlow_place h hi hn]
  have hst : (∀ g d n, HasNode s' g d n → ∀ c, n.storages.head? = some c → ∀ t < s'.horizon, Evolves k D g d 0 c t) ↔
      (∀ g d n, HasNode s g d n → ∀ c, n.storages.head? = some c → ∀ t < s.horizon, Evolves k (place.dispatch D) g d 0 c t) := by
    rw [h.forall hi', h.horizon]
    refine forall₄_congr fun g d n hn => ?_
    simp only [evolves_place]
    rfl
  exact ⟨fun hD => ⟨(bounds_place h hi hi').mp hD.bounds, hb.mp hD.balance, hst.mp hD.storages, (ratios_place h hi).mp hD.ratios⟩,
    fun hD => ⟨(bounds_place h hi hi').mpr hD.bounds, hb.mpr hD.balance, hst.mpr hD.storages, (ratios_place h hi).mpr hD.ratios⟩⟩

include h hi hi' in
theorem feasible_place (hcomp : CompleteConverters s) : Spec.Feasible s' k D ↔ Spec.Feasible s k (place.dispatch D) := by
  have hb : Balanced s' k D ↔ Balanced s k (place.dispatch D) := by
    unfold Balanced
    rw [h.forall hi', h.horizon]
    refine forall₄_congr fun g d n hn => forall₂_congr fun t _ => ?_
    rw [incoming_place h hi hi' hcomp hn, outgoing_place h hi hn]
  have hst : StorageOk s' k D ↔ StorageOk s k (place.dispatch D) := by
    unfold StorageOk
    rw [h.forall hi', h.horizon]
    refine forall₄_congr fun g d n hn => ?_
    simp only [evolves_place]
    rfl
  exact ⟨fun hD => ⟨(bounds_place h hi hi').mp hD.bounds, hb.mp hD.balanced, hst.mp hD.storages, (ratios_place h hi).mp hD.ratios⟩,
    fun hD => ⟨(bounds_place h hi hi').mpr hD.bounds, hb.mpr hD.balanced, hst.mpr hD.storages, (ratios_place h hi).mpr hD.ratios⟩⟩

open Classical in
/-- the node of `s` at a new place -/
noncomputable def oldPlace (s : Study) (place : Place) (x : String × String) : String × String :=
  if hx : ∃ y : String × String, (∃ n, HasNode s y.1 y.2 n) ∧ place y = x then hx.choose else x

include h in
theorem oldPlace_eq {g d : String} {n : InputNode} (hn : HasNode s g d n) : oldPlace s place (place (g, d)) = (g, d) := by
  have hx : ∃ y : String × String, (∃ n, HasNode s y.1 y.2 n) ∧ place y = place (g, d) := ⟨(g, d), ⟨n, hn⟩, rfl⟩
  unfold oldPlace
  rw [dif_pos hx]
  obtain ⟨⟨n2, hn2⟩, e⟩ := hx.choose_spec
  exact h.apart _ _ n2 g d n hn2 hn e

include h hi in
/-- every dispatch of `s` is a dispatch of `s'` read at the old places -/
theorem onto_place (D : Dispatch) : ∃ D', SameFlows s D (place.dispatch D') := by
  refine ⟨Place.dispatch (oldPlace s place) D, ?_⟩
  have key : ∀ g d n, HasNode s g d n → oldPlace s place ((place (g, d)).1, (place (g, d)).2) = (g, d) :=
    fun g d n hn => oldPlace_eq h hn
  refine ⟨?_, ?_, ?_, ?_, ?_, ?_, ?_, ?_⟩
  · intro g d n hn i _ t _; simp only [Place.dispatch, key g d n hn]
  · intro g d n hn i _ t _; simp only [Place.dispatch, key g d n hn]
  · intro g d n hn i _ t _; simp only [Place.dispatch, key g d n hn]
  · intro g d n hn i _ t _; simp only [Place.dispatch, key g d n hn]
  · intro g d n hn i _ t _; simp only [Place.dispatch, key g d n hn]
  · intro g d n hn i _ t _; simp only [Place.dispatch, key g d n hn]
  · intro p hp g d hm t _
    obtain ⟨g2, d2, n2, e1, hn2⟩ := (hi.convs p hp).sources _ hm
    simp only [List.cons.injEq, and_true] at e1
    obtain ⟨rfl, rfl⟩ := e1
    simp only [Place.dispatch, key g d n2 hn2, oldPlace_eq h hn2]
  · intro p _ t _; rfl

end

end Hadar
