import Verif.Spec.Order
import Verif.Proofs.Prices

/-!
# Moving a dispatch between studies that differ by the order of their declarations
-/

namespace Hadar

open Spec

theorem Spec.SameElements.symm {n n' : InputNode} (h : SameElements n n') : SameElements n' n :=
  ⟨h.consumptions.symm, h.productions.symm, h.storages.symm, h.links.symm⟩

theorem Spec.SameSources.symm {c c' : Converter} (h : SameSources c c') : SameSources c' c :=
  ⟨h.sources.symm, h.destNetwork.symm, h.destNode.symm, h.cost.symm, h.max.symm⟩

theorem Spec.Reordered.symm {s s' : Study} (h : Reordered s s') : Reordered s' s where
  horizon := h.horizon.symm
  nbScn := h.nbScn.symm
  nodes := fun g d n hn => by
    obtain ⟨n', hn', he⟩ := h.nodes' g d n hn
    exact ⟨n', hn', he.symm⟩
  nodes' := fun g d n hn => by
    obtain ⟨n', hn', he⟩ := h.nodes g d n hn
    exact ⟨n', hn', he.symm⟩
  converters := fun p hp => by
    obtain ⟨c, hc, he⟩ := h.converters' p hp
    exact ⟨c, hc, he.symm⟩
  converters' := fun p hp => by
    obtain ⟨c, hc, he⟩ := h.converters p hp
    exact ⟨c, hc, he.symm⟩

theorem Spec.SameFirstStorage.symm {s s' : Study} (h : SameFirstStorage s s') : SameFirstStorage s' s :=
  fun g d n n' hn hn' => (h g d n' n hn' hn).symm

/-! ### Sums -/

theorem sumL_permuted {α : Type} {l l' : List α} (h : l.Perm l') (f : α → ℚ) : sumL l f = sumL l' f :=
  (h.map f).sum_eq

theorem posIn_get {α : Type} [DecidableEq α] {l l' : List α} (hp : l.Perm l') {i : ℕ} {a : α} (ha : l'[i]? = some a) :
    l[posIn l l' i]? = some a := by
  have hm : a ∈ l := hp.mem_iff.mpr (List.mem_of_getElem? ha)
  simp only [posIn, ha]
  rw [List.getElem?_eq_getElem (List.idxOf_lt_length_of_mem hm), List.getElem_idxOf]

/-- sums over the elements of `l'`, with the positions they have in `l` -/
theorem sumI_moved {α : Type} [DecidableEq α] {l l' : List α} (hp : l.Perm l') (hn : l.Nodup) (F : α → ℕ → ℚ) :
    (sumI l' fun a i => F a (posIn l l' i)) = sumI l F := by
  have h1 : (sumI l' fun a i => F a (posIn l l' i)) = sumI l' fun a _ => F a (l.idxOf a) := by
    apply sumI_congr
    intro a i ha
    simp only [posIn, ha]
  have h2 : sumI l F = sumI l fun a _ => F a (l.idxOf a) := by
    apply sumI_congr
    intro a i ha
    obtain ⟨hi, rfl⟩ := List.getElem?_eq_some_iff.mp ha
    rw [hn.idxOf_getElem]
  have h3 : ∀ (m : List α) (f : α → ℚ), (sumI m fun a _ => f a) = sumL m f := by
    intro m f
    unfold sumI sumL
    rw [show (fun p : α × ℕ => f p.1) = f ∘ Prod.fst from rfl, ← List.map_map, List.zipIdx_map_fst]
  rw [h1, h2, h3, h3]
  exact (sumL_permuted hp _).symm

open Classical in
/-- sums over lists with the same keys -/
theorem sumL_keyed {K α : Type} {l l' : List (K × α)} (hn : (l.map Prod.fst).Nodup) (hn' : (l'.map Prod.fst).Nodup)
    (h : ∀ p ∈ l, ∃ q ∈ l', q.1 = p.1) (h' : ∀ q ∈ l', ∃ p ∈ l, p.1 = q.1) {f f' : K × α → ℚ}
    (hf : ∀ p ∈ l, ∀ q ∈ l', p.1 = q.1 → f p = f' q) : sumL l f = sumL l' f' := by
  let G : K → ℚ := fun k => if hk : ∃ p ∈ l, p.1 = k then f hk.choose else 0
  have hG : ∀ p ∈ l, f p = G p.1 := by
    intro p hp
    have hk : ∃ q ∈ l, q.1 = p.1 := ⟨p, hp, rfl⟩
    have e : hk.choose = p := List.inj_on_of_nodup_map hn hk.choose_spec.1 hp hk.choose_spec.2
    simp only [G, dif_pos hk]
    rw [e]
  have hG' : ∀ q ∈ l', f' q = G q.1 := by
    intro q hq
    obtain ⟨p, hp, e⟩ := h' q hq
    rw [← e, ← hG p hp, hf p hp q hq e]
  have hperm : (l.map Prod.fst).Perm (l'.map Prod.fst) := by
    rw [List.perm_ext_iff_of_nodup hn hn']
    intro k
    constructor
    · intro hk
      obtain ⟨p, hp, rfl⟩ := List.mem_map.mp hk
      obtain ⟨q, hq, e⟩ := h p hp
      exact List.mem_map.mpr ⟨q, hq, e⟩
    · intro hk
      obtain ⟨q, hq, rfl⟩ := List.mem_map.mp hk
      obtain ⟨p, hp, e⟩ := h' q hq
      exact List.mem_map.mpr ⟨p, hp, e⟩
  rw [sumL_congr hG, sumL_congr hG']
  have := sumL_permuted hperm G
  simp only [sumL, List.map_map] at this
  exact this

/-- the nodes of a study, in one list -/
def nodesOf (s : Study) : List ((String × String) × InputNode) :=
  s.networks.flatMap fun p => p.2.nodes.map fun q => ((p.1, q.1), q.2)

theorem mem_nodesOf {s : Study} {a : (String × String) × InputNode} : a ∈ nodesOf s ↔ HasNode s a.1.1 a.1.2 a.2 := by
  obtain ⟨⟨g, d⟩, n⟩ := a
  simp only [nodesOf, List.mem_flatMap, List.mem_map, Prod.mk.injEq, HasNode]
  constructor
  · rintro ⟨⟨g', net⟩, hg, ⟨d', n'⟩, hd, ⟨rfl, rfl⟩, rfl⟩
    exact ⟨net, hg, hd⟩
  · rintro ⟨net, hg, hd⟩
    exact ⟨(g, net), hg, (d, n), hd, ⟨rfl, rfl⟩, rfl⟩

theorem nodup_nodesOf {s : Study} (hi : StudyInv s) : ((nodesOf s).map Prod.fst).Nodup := by
  have : (nodesOf s).map Prod.fst = s.networks.flatMap fun p => p.2.nodes.map fun q => (p.1, q.1) := by
    simp only [nodesOf, List.map_flatMap, List.map_map]
    rfl
  rw [this, List.nodup_flatMap]
  refine ⟨fun p hp => ?_, ?_⟩
  · have := hi.names.nodes p hp
    exact List.Nodup.of_map Prod.snd (by
      rw [List.map_map]
      exact this)
  · have := hi.names.networks
    rw [List.Nodup, List.pairwise_map] at this
    refine this.imp ?_
    intro p q hne a ha hb
    obtain ⟨_, _, rfl⟩ := List.mem_map.mp ha
    obtain ⟨_, _, e⟩ := List.mem_map.mp hb
    exact hne (Prod.mk.inj e).1.symm

theorem sumN_nodesOf (s : Study) (f : String → String → InputNode → ℚ) :
    sumN s f = sumL (nodesOf s) fun a => f a.1.1 a.1.2 a.2 := by
  unfold sumN nodesOf sumL
  induction s.networks with
  | nil => rfl
  | cons p l ih =>
    rw [List.map_cons, List.sum_cons, List.flatMap_cons, List.map_append, List.sum_append, ← ih, List.map_map]
    rfl

section

variable {s s' : Study} {k : ℕ} {D : Dispatch}

theorem Spec.Reordered.sumN (h : Reordered s s') (hi : StudyInv s) (hi' : StudyInv s')
    {f f' : String → String → InputNode → ℚ}
    (hf : ∀ g d n n', HasNode s g d n → HasNode s' g d n' → SameElements n n' → f g d n = f' g d n') :
    Hadar.sumN s f = Hadar.sumN s' f' := by
  rw [sumN_nodesOf, sumN_nodesOf]
  apply sumL_keyed (nodup_nodesOf hi) (nodup_nodesOf hi')
  · rintro ⟨⟨g, d⟩, n⟩ hp
    obtain ⟨n', hn', -⟩ := h.nodes g d n (mem_nodesOf.mp hp)
    exact ⟨((g, d), n'), mem_nodesOf.mpr hn', rfl⟩
  · rintro ⟨⟨g, d⟩, n⟩ hp
    obtain ⟨n', hn', -⟩ := h.nodes' g d n (mem_nodesOf.mp hp)
    exact ⟨((g, d), n'), mem_nodesOf.mpr hn', rfl⟩
  · rintro ⟨⟨g, d⟩, n⟩ hp ⟨⟨g', d'⟩, n'⟩ hq e
    obtain ⟨rfl, rfl⟩ := Prod.mk.inj e
    have hn := mem_nodesOf.mp hp
    have hn' := mem_nodesOf.mp hq
    obtain ⟨m, hm, he⟩ := h.nodes g d n hn
    obtain rfl := hasNode_unique hi' hm hn'
    exact hf g d n m hn hn' he

theorem Spec.Reordered.sumC (h : Reordered s s') (hi : StudyInv s) (hi' : StudyInv s') {f f' : String × Converter → ℚ}
    (hf : ∀ c p p', SameSources p p' → f (c, p) = f' (c, p')) : sumL s.converters f = sumL s'.converters f' := by
  apply sumL_keyed hi.names.converters hi'.names.converters
  · intro p hp
    obtain ⟨c, hc, -⟩ := h.converters p hp
    exact ⟨_, hc, rfl⟩
  · intro p hp
    obtain ⟨c, hc, -⟩ := h.converters' p hp
    exact ⟨_, hc, rfl⟩
  · rintro ⟨c, p⟩ hp ⟨c', p'⟩ hq e
    obtain rfl : c = c' := e
    obtain ⟨q, hq', he⟩ := h.converters _ hp
    have : (c, q) = (c, p') := List.inj_on_of_nodup_map hi'.names.converters hq' hq rfl
    obtain rfl := (Prod.mk.inj this).2
    exact hf c p q he

/-! ### The moved dispatch -/

theorem moved_nodeCost (hi : StudyInv s) (hi' : StudyInv s') {g d : String} {n n' : InputNode} (hn : HasNode s g d n)
    (hn' : HasNode s' g d n') (he : SameElements n n') (t : ℕ) :
    nodeCost k (moved s s' D) g d n' t = nodeCost k D g d n t := by
  simp only [nodeCost, moved, inNode_eq hi hn, inNode_eq hi' hn']
  rw [sumI_moved he.consumptions (hi.names.consumptions g d n hn).of_map fun c i => val c.cost k t * D.lol g d i t,
    sumI_moved he.productions (hi.names.productions g d n hn).of_map fun c i => val c.cost k t * D.prod g d i t,
    sumI_moved he.storages (hi.names.storages g d n hn).of_map fun c i => val c.cost k t * D.cap g d i t,
    sumI_moved he.links (hi.names.links g d n hn).of_map fun c i => val c.cost k t * D.link g d i t]

theorem moved_cost (h : Reordered s s') (hi : StudyInv s) (hi' : StudyInv s') :
    cost s' k (moved s s' D) = cost s k D := by
  unfold cost
  rw [h.horizon]
  apply sumL_congr
  intro t _
  congr 1
  · exact (h.sumN hi hi' (f := fun g d n => nodeCost k D g d n t) (f' := fun g d n => nodeCost k (moved s s' D) g d n t)
      fun g d n n' hn hn' he => (moved_nodeCost hi hi' hn hn' he t).symm).symm
  · apply (h.sumC hi hi' _).symm
    intro c p p' he
    simp only [moved]
    rw [he.cost]

theorem imports_sumN (s : Study) (D : Dispatch) (g d : String) (t : ℕ) :
    imports s D g d t = Hadar.sumN s fun g' d' n =>
      if g' = g then sumI n.links fun l i => if l.dest = d then D.link g' d' i t else 0 else 0 := by
  unfold imports Hadar.sumN
  rw [sumL_filter]
  apply sumL_congr
  rintro ⟨g', net⟩ _
  by_cases e : g' = g
  · subst e
    simp
  · simp [e, sumL_zero]

theorem moved_imports (h : Reordered s s') (hi : StudyInv s) (hi' : StudyInv s') (g d : String) (t : ℕ) :
    imports s' (moved s s' D) g d t = imports s D g d t := by
  rw [imports_sumN, imports_sumN]
  apply (h.sumN hi hi' _).symm
  intro g' d' n n' hn hn' he
  split_ifs
  · simp only [moved, inNode_eq hi hn, inNode_eq hi' hn']
    exact (sumI_moved he.links (hi.names.links g' d' n hn).of_map
      fun l i => if l.dest = d then D.link g' d' i t else 0).symm
  · rfl

theorem moved_from (h : Reordered s s') (hi : StudyInv s) (hi' : StudyInv s') (g d : String) (t : ℕ) :
    fromConverters s' (moved s s' D) g d t = fromConverters s D g d t := by
  unfold fromConverters
  apply (h.sumC hi hi' _).symm
  intro c p p' he
  simp only [moved, he.destNetwork, he.destNode]

theorem moved_to (h : Reordered s s') (hi : StudyInv s) (hi' : StudyInv s') (g d : String) (t : ℕ) :
    toConverters s' (moved s s' D) g d t = toConverters s D g d t := by
  unfold toConverters
  apply (h.sumC hi hi' _).symm
  intro c p p' he
  exact sumL_permuted he.sources _

theorem moved_incoming (h : Reordered s s') (hi : StudyInv s) (hi' : StudyInv s') {g d : String} {n n' : InputNode}
    (hn : HasNode s g d n) (hn' : HasNode s' g d n') (he : SameElements n n') (t : ℕ) :
    incoming s' (moved s s' D) g d n' t = incoming s D g d n t := by
  unfold incoming
  rw [moved_imports h hi hi', moved_from h hi hi']
  simp only [moved, inNode_eq hi hn, inNode_eq hi' hn']
  rw [sumI_moved he.productions (hi.names.productions g d n hn).of_map fun _ i => D.prod g d i t,
    sumI_moved he.storages (hi.names.storages g d n hn).of_map fun _ i => D.fout g d i t]

theorem moved_outgoing (h : Reordered s s') (hi : StudyInv s) (hi' : StudyInv s') {g d : String} {n n' : InputNode}
    (hn : HasNode s g d n) (hn' : HasNode s' g d n') (he : SameElements n n') (t : ℕ) :
    outgoing s' k (moved s s' D) g d n' t = outgoing s k D g d n t := by
  unfold outgoing
  rw [moved_to h hi hi']
  simp only [moved, inNode_eq hi hn, inNode_eq hi' hn']
  rw [sumI_moved he.consumptions (hi.names.consumptions g d n hn).of_map fun c i => val c.quantity k t - D.lol g d i t,
    sumI_moved he.storages (hi.names.storages g d n hn).of_map fun _ i => D.fin g d i t,
    sumI_moved he.links (hi.names.links g d n hn).of_map fun _ i => D.link g d i t]

theorem moved_self (hi : StudyInv s) (hi' : StudyInv s') {g d : String} {n n' : InputNode}
    (hn : HasNode s g d n) (hn' : HasNode s' g d n') (he : SameElements n n') (t : ℕ) :
    selfFlow (moved s s' D) g d n' t = selfFlow D g d n t := by
  unfold selfFlow
  simp only [moved, inNode_eq hi hn, inNode_eq hi' hn']
  rw [sumI_moved he.links (hi.names.links g d n hn).of_map fun l i => if l.dest = d then D.link g d i t else 0]

theorem moved_bounds (h : Reordered s s') (hi : StudyInv s) (hi' : StudyInv s') (hD : Bounds s k D) :
    Bounds s' k (moved s s' D) where
  consumptions := fun g d n' hn' i c hc t ht => by
    obtain ⟨n, hn, he⟩ := h.nodes' g d n' hn'
    simp only [moved, inNode_eq hi hn, inNode_eq hi' hn']
    exact hD.consumptions g d n hn _ c (posIn_get he.consumptions hc) t (h.horizon ▸ ht)
  productions := fun g d n' hn' i c hc t ht => by
    obtain ⟨n, hn, he⟩ := h.nodes' g d n' hn'
    simp only [moved, inNode_eq hi hn, inNode_eq hi' hn']
    exact hD.productions g d n hn _ c (posIn_get he.productions hc) t (h.horizon ▸ ht)
  storages := fun g d n' hn' i c hc t ht => by
    obtain ⟨n, hn, he⟩ := h.nodes' g d n' hn'
    simp only [moved, inNode_eq hi hn, inNode_eq hi' hn']
    exact hD.storages g d n hn _ c (posIn_get he.storages hc) t (h.horizon ▸ ht)
  links := fun g d n' hn' i c hc t ht => by
    obtain ⟨n, hn, he⟩ := h.nodes' g d n' hn'
    simp only [moved, inNode_eq hi hn, inNode_eq hi' hn']
    exact hD.links g d n hn _ c (posIn_get he.links hc) t (h.horizon ▸ ht)
  convSrc := fun p hp g d r hr t ht => by
    obtain ⟨c, hc, he⟩ := h.converters' p hp
    have := hD.convSrc _ hc g d r (he.sources.mem_iff.mpr hr) t (h.horizon ▸ ht)
    rw [← he.max]
    exact this
  convDest := fun p hp t ht => by
    obtain ⟨c, hc, he⟩ := h.converters' p hp
    have := hD.convDest _ hc t (h.horizon ▸ ht)
    rw [← he.max]
    exact this

theorem moved_evolves (hi : StudyInv s) (hi' : StudyInv s') {g d : String} {n n' : InputNode}
    (hn : HasNode s g d n) (hn' : HasNode s' g d n') {i : ℕ} {c : Storage} {t : ℕ}
    (hD : Evolves k D g d (posIn n.storages n'.storages i) c t) : Evolves k (moved s s' D) g d i c t := by
  unfold Evolves at hD ⊢
  have hl : levelBefore (moved s s' D) g d i c.initCapacity t =
      levelBefore D g d (posIn n.storages n'.storages i) c.initCapacity t := by
    cases t with
    | zero => rfl
    | succ t => simp only [levelBefore, moved, inNode_eq hi hn, inNode_eq hi' hn']
  rw [hl]
  simp only [moved, inNode_eq hi hn, inNode_eq hi' hn']
  exact hD

theorem moved_ratios (h : Reordered s s') (hD : RatiosOk s k D) : RatiosOk s' k (moved s s' D) := by
  intro p hp g d r hr t ht
  obtain ⟨c, hc, he⟩ := h.converters' p hp
  exact hD _ hc g d r (he.sources.mem_iff.mpr hr) t (h.horizon ▸ ht)

theorem moved_code (h : Reordered s s') (hst : SameFirstStorage s s') (hi : StudyInv s) (hi' : StudyInv s')
    (hD : CodeFeasible s k D) : CodeFeasible s' k (moved s s' D) where
  bounds := moved_bounds h hi hi' hD.bounds
  balance := fun g d n' hn' t ht => by
    obtain ⟨n, hn, he⟩ := h.nodes' g d n' hn'
    rw [moved_incoming h hi hi' hn hn' he, moved_outgoing h hi hi' hn hn' he, moved_self hi hi' hn hn' he]
    exact hD.balance g d n hn t (h.horizon ▸ ht)
  storages := fun g d n' hn' c hc t ht => by
    obtain ⟨n, hn, he⟩ := h.nodes' g d n' hn'
    have hc0 : n.storages.head? = some c := by rw [hst g d n n' hn hn']; exact hc
    apply moved_evolves hi hi' hn hn'
    have : posIn n.storages n'.storages 0 = 0 := by
      rw [List.head?_eq_getElem?] at hc
      simp only [posIn, hc]
      cases hs : n.storages with
      | nil => rw [hs] at hc0; simp at hc0
      | cons a l => rw [hs] at hc0; simp at hc0; rw [hc0, List.idxOf_cons_self]
    rw [this]
    exact hD.storages g d n hn c hc0 t (h.horizon ▸ ht)
  ratios := moved_ratios h hD.ratios

theorem moved_feasible (h : Reordered s s') (hi : StudyInv s) (hi' : StudyInv s') (hD : Spec.Feasible s k D) :
    Spec.Feasible s' k (moved s s' D) where
  bounds := moved_bounds h hi hi' hD.bounds
  balanced := fun g d n' hn' t ht => by
    obtain ⟨n, hn, he⟩ := h.nodes' g d n' hn'
    rw [moved_incoming h hi hi' hn hn' he, moved_outgoing h hi hi' hn hn' he]
    exact hD.balanced g d n hn t (h.horizon ▸ ht)
  storages := fun g d n' hn' i c hc t ht => by
    obtain ⟨n, hn, he⟩ := h.nodes' g d n' hn'
    exact moved_evolves hi hi' hn hn'
      (hD.storages g d n hn _ c (posIn_get he.storages hc) t (h.horizon ▸ ht))
  ratios := moved_ratios h hD.ratios

end

theorem Spec.Reordered.ready {s s' : Study} (h : Reordered s s') (hs : Ready s) (hb : Built s') : Ready s' where
  built := hb
  complete := fun p hp => by
    obtain ⟨c, hc, he⟩ := h.converters' p hp
    have := hs.complete _ hc
    rw [← he.cost, ← he.max]
    exact this
  ratios := fun p hp q hq k hk t ht => by
    obtain ⟨c, hc, he⟩ := h.converters' p hp
    rw [← he.max]
    exact hs.ratios _ hc q (he.sources.mem_iff.mpr hq) k (h.nbScn ▸ hk) t (h.horizon ▸ ht)
  clean := fun p hp g d hq => by
    obtain ⟨c, hc, he⟩ := h.converters' p hp
    exact hs.clean _ hc g d ((he.sources.map Prod.fst).mem_iff.mpr hq)

end Hadar
