import Verif.Spec.Extension
import Verif.Proofs.Order
import Verif.Proofs.Fluent
import Verif.Proofs.LPReady

/-!
# Carrying dispatches between a study and the same study with more elements
-/

namespace Hadar

open Spec

/-- new elements do nothing and new consumptions are not served -/
structure Still (s s' : Study) (k : ℕ) (D : Dispatch) : Prop where
  consumptions : ∀ g d n, HasNode s' g d n → ∀ i c, (inNode s g d).consumptions.length ≤ i →
    n.consumptions[i]? = some c → ∀ t < s'.horizon, D.lol g d i t = val c.quantity k t
  productions : ∀ g d n, HasNode s' g d n → ∀ i c, (inNode s g d).productions.length ≤ i →
    n.productions[i]? = some c → ∀ t < s'.horizon, D.prod g d i t = 0
  storages : ∀ g d n, HasNode s' g d n → ∀ i c, (inNode s g d).storages.length ≤ i →
    n.storages[i]? = some c → ∀ t < s'.horizon, D.cap g d i t = c.initCapacity ∧ D.fin g d i t = 0 ∧ D.fout g d i t = 0
  links : ∀ g d n, HasNode s' g d n → ∀ i c, (inNode s g d).links.length ≤ i →
    n.links[i]? = some c → ∀ t < s'.horizon, D.link g d i t = 0
  converters : ∀ p, NewConverter s s' p → ∀ t < s'.horizon, D.convDest p.1 t = 0 ∧
    ∀ g d r, ([g, d], r) ∈ p.2.srcRatios → D.convSrc p.1 (g, d) t = 0

/-! ### Sums -/

theorem sumI_prefix {α : Type} {l l' : List α} (h : l <+: l') {f : α → ℕ → ℚ} {e : α → ℚ}
    (hf : ∀ i a, l.length ≤ i → l'[i]? = some a → f a i = e a) : sumI l' f = sumI l f + sumL (newIn l l') e := by
  obtain ⟨m, rfl⟩ := h
  unfold newIn
  rw [List.drop_left, sumI_eq, sumI_eq, List.zipIdx_append, sumL_append]
  congr 1
  rw [Nat.zero_add]
  have key : ∀ p ∈ m.zipIdx l.length, f p.1 p.2 = e p.1 := by
    rintro ⟨a, i⟩ hp
    obtain ⟨j, hj, e1⟩ := List.mem_iff_getElem.mp hp
    rw [List.getElem_zipIdx] at e1
    simp only [Prod.mk.injEq] at e1
    rw [List.length_zipIdx] at hj
    apply hf
    · show l.length ≤ i
      omega
    · show (l ++ m)[i]? = some a
      rw [← e1.1, ← e1.2, List.getElem?_append_right (by omega), show l.length + j - l.length = j by omega,
        List.getElem?_eq_getElem hj]
  rw [sumL_congr key]
  unfold sumL
  rw [show (fun p : α × ℕ => e p.1) = e ∘ Prod.fst from rfl, ← List.map_map, List.zipIdx_map_fst]

theorem sumI_prefix0 {α : Type} {l l' : List α} (h : l <+: l') {f : α → ℕ → ℚ}
    (hf : ∀ i a, l.length ≤ i → l'[i]? = some a → f a i = 0) : sumI l' f = sumI l f := by
  rw [sumI_prefix h (e := fun _ => 0) hf, sumL_zero, add_zero]

open Classical in
/-- sums over lists, one of which has more keys -/
theorem sumL_keyed_more {K α : Type} {l l' : List (K × α)} (hn : (l.map Prod.fst).Nodup) (hn' : (l'.map Prod.fst).Nodup)
    (h : ∀ p ∈ l, ∃ q ∈ l', q.1 = p.1) {f f' e : K × α → ℚ}
    (hf : ∀ p ∈ l, ∀ q ∈ l', p.1 = q.1 → f' q = f p + e q)
    (h0 : ∀ q ∈ l', q.1 ∉ l.map Prod.fst → f' q = e q) : sumL l' f' = sumL l f + sumL l' e := by
  have h1 : sumL l f = sumL (l'.filter fun q => decide (q.1 ∈ l.map Prod.fst)) fun q => f' q - e q := by
    apply sumL_keyed hn (hn'.sublist (List.filter_sublist.map _))
    · intro p hp
      obtain ⟨q, hq, e1⟩ := h p hp
      refine ⟨q, List.mem_filter.mpr ⟨hq, ?_⟩, e1⟩
      rw [decide_eq_true_eq, e1]
      exact List.mem_map.mpr ⟨p, hp, rfl⟩
    · intro q hq
      have := (List.mem_filter.mp hq).2
      rw [decide_eq_true_eq] at this
      obtain ⟨p, hp, e1⟩ := List.mem_map.mp this
      exact ⟨p, hp, e1⟩
    · intro p hp q hq e1
      rw [hf p hp q (List.mem_filter.mp hq).1 e1]
      ring
  have h2 : (sumL l' fun q => f' q - e q) = sumL (l'.filter fun q => decide (q.1 ∈ l.map Prod.fst)) fun q => f' q - e q := by
    rw [sumL_filter]
    apply sumL_congr
    intro q hq
    by_cases hm : q.1 ∈ l.map Prod.fst
    · rw [if_pos (by simpa using hm)]
    · rw [if_neg (by simpa using hm), h0 q hq hm, sub_self]
  rw [h1, ← h2, sumL_sub]
  ring

section

variable {s s' : Study} {k : ℕ} {D : Dispatch}

theorem inNode_none {g d : String} (h : ∀ n, ¬ HasNode s g d n) : inNode s g d = ⟨[], [], [], []⟩ := by
  unfold inNode
  cases hg : s.networks.get? g with
  | none => rfl
  | some net =>
    simp only [Option.bind_some]
    cases hd : net.nodes.get? d with
    | none => rfl
    | some n => exact absurd (hasNode_of_get? hg hd) (h n)

theorem Spec.StudyExt.nodeExt (he : StudyExt s s') (hi : StudyInv s) (hi' : StudyInv s') {g d : String} {n' : InputNode}
    (hn' : HasNode s' g d n') : NodeExt (inNode s g d) n' := by
  by_cases h : ∃ n, HasNode s g d n
  · obtain ⟨n, hn⟩ := h
    obtain ⟨n'', h1, h2⟩ := he.hasNode hn
    rw [inNode_eq hi hn, hasNode_unique hi' hn' h1]
    exact h2
  · rw [inNode_none (not_exists.mp h)]
    exact ⟨List.nil_prefix, List.nil_prefix, List.nil_prefix, List.nil_prefix⟩

theorem Spec.StudyExt.sumN (he : StudyExt s s') (hi : StudyInv s) (hi' : StudyInv s')
    {f f' e : String → String → InputNode → ℚ}
    (hf : ∀ g d n n', HasNode s g d n → HasNode s' g d n' → NodeExt n n' → f' g d n' = f g d n + e g d n')
    (h0 : ∀ g d n', HasNode s' g d n' → (∀ n, ¬ HasNode s g d n) → f' g d n' = e g d n') :
    Hadar.sumN s' f' = Hadar.sumN s f + Hadar.sumN s' e := by
  rw [sumN_nodesOf, sumN_nodesOf, sumN_nodesOf]
  apply sumL_keyed_more (nodup_nodesOf hi) (nodup_nodesOf hi')
  · rintro ⟨⟨g, d⟩, n⟩ hp
    obtain ⟨n', hn', _⟩ := he.hasNode (mem_nodesOf.mp hp)
    exact ⟨((g, d), n'), mem_nodesOf.mpr hn', rfl⟩
  · rintro ⟨⟨g, d⟩, n⟩ hp ⟨⟨g', d'⟩, n'⟩ hq e1
    simp only [Prod.mk.injEq] at e1
    obtain ⟨rfl, rfl⟩ := e1
    have hn := mem_nodesOf.mp hp
    have hn' := mem_nodesOf.mp hq
    have := he.nodeExt hi hi' hn'
    rw [inNode_eq hi hn] at this
    exact hf g d n n' hn hn' this
  · rintro ⟨⟨g, d⟩, n'⟩ hq hno
    refine h0 g d n' (mem_nodesOf.mp hq) fun n hn => hno ?_
    exact List.mem_map.mpr ⟨((g, d), n), mem_nodesOf.mpr hn, rfl⟩

theorem sumC_more (hi : StudyInv s) (hi' : StudyInv s') (hc : SameConverters s s') {f f' : String × Converter → ℚ}
    (hf : ∀ p ∈ s.converters, f' p = f p) (h0 : ∀ p, NewConverter s s' p → f' p = 0) :
    sumL s'.converters f' = sumL s.converters f := by
  rw [sumL_keyed_more (e := fun _ => 0) hi.names.converters hi'.names.converters (f := f), sumL_zero, add_zero]
  · exact fun p hp => ⟨p, hc p hp, rfl⟩
  · intro p hp q hq e1
    have : p = q := List.inj_on_of_nodup_map hi'.names.converters (hc p hp) hq e1
    rw [← this, hf p hp, add_zero]
  · exact fun q hq hno => h0 q ⟨hq, hno⟩

end

/-! ### Balances -/

section

variable {s s' : Study} {k : ℕ} {D : Dispatch} (he : StudyExt s s') (hi : StudyInv s) (hi' : StudyInv s')
  (hc : SameConverters s s') (hS : Still s s' k D)

include he hi hi' hS in
theorem still_imports (g d : String) {t : ℕ} (ht : t < s'.horizon) : imports s' D g d t = imports s D g d t := by
  rw [imports_sumN, imports_sumN]
  have key := he.sumN hi hi' (e := fun _ _ _ => 0)
    (f := fun g' d' n => if g' = g then sumI n.links fun l i => if l.dest = d then D.link g' d' i t else 0 else 0)
    (f' := fun g' d' n => if g' = g then sumI n.links fun l i => if l.dest = d then D.link g' d' i t else 0 else 0) ?_ ?_
  · rw [key, sumN_zero, add_zero]
  · intro g' d' n n' hn hn' hx
    rw [add_zero]
    split_ifs
    · apply sumI_prefix0 hx.links
      intro i l hl ha
      rw [hS.links g' d' n' hn' i l (by rw [inNode_eq hi hn]; exact hl) ha t ht, ite_self]
    · rfl
  · intro g' d' n' hn' hno
    split_ifs
    · rw [sumI_congr (g := fun _ _ => 0), sumI_zero]
      intro l i ha
      rw [hS.links g' d' n' hn' i l (by rw [inNode_none hno]; exact Nat.zero_le _) ha t ht, ite_self]
    · rfl

include hi hi' hc hS in
theorem still_from (g d : String) {t : ℕ} (ht : t < s'.horizon) :
    fromConverters s' D g d t = fromConverters s D g d t := by
  unfold fromConverters
  apply sumC_more hi hi' hc (fun _ _ => rfl)
  intro p hp
  rw [(hS.converters p hp t ht).1, ite_self]

include hi hi' hc hS in
theorem still_to (g d : String) {t : ℕ} (ht : t < s'.horizon) :
    toConverters s' D g d t = toConverters s D g d t := by
  unfold toConverters
  apply sumC_more hi hi' hc (fun _ _ => rfl)
  intro p hp
  apply sumL_eq_zero
  rintro ⟨x, r⟩ hq
  dsimp only
  split_ifs with e1
  · subst e1
    exact (hS.converters p hp t ht).2 g d r hq
  · rfl

include he hi hi' hc hS in
theorem still_incoming {g d : String} {n' : InputNode} (hn' : HasNode s' g d n') {t : ℕ} (ht : t < s'.horizon) :
    incoming s' D g d n' t = incoming s D g d (inNode s g d) t := by
  have hx := he.nodeExt hi hi' hn'
  unfold incoming
  rw [still_imports he hi hi' hS g d ht, still_from hi hi' hc hS g d ht,
    sumI_prefix0 hx.productions (fun i c hl ha => hS.productions g d n' hn' i c hl ha t ht),
    sumI_prefix0 hx.storages (fun i c hl ha => (hS.storages g d n' hn' i c hl ha t ht).2.2)]

include he hi hi' hc hS in
theorem still_outgoing {g d : String} {n' : InputNode} (hn' : HasNode s' g d n') {t : ℕ} (ht : t < s'.horizon) :
    outgoing s' k D g d n' t = outgoing s k D g d (inNode s g d) t := by
  have hx := he.nodeExt hi hi' hn'
  unfold outgoing
  rw [still_to hi hi' hc hS g d ht,
    sumI_prefix0 hx.consumptions (fun i c hl ha => by rw [hS.consumptions g d n' hn' i c hl ha t ht, sub_self]),
    sumI_prefix0 hx.storages (fun i c hl ha => (hS.storages g d n' hn' i c hl ha t ht).2.1),
    sumI_prefix0 hx.links (fun i c hl ha => hS.links g d n' hn' i c hl ha t ht)]

include he hi hi' hS in
theorem still_selfFlow {g d : String} {n' : InputNode} (hn' : HasNode s' g d n') {t : ℕ} (ht : t < s'.horizon) :
    selfFlow D g d n' t = selfFlow D g d (inNode s g d) t := by
  have hx := he.nodeExt hi hi' hn'
  unfold selfFlow
  apply sumI_prefix0 hx.links
  intro i c hl ha
  rw [hS.links g d n' hn' i c hl ha t ht, ite_self]

/-- nothing comes to a node that the study does not have -/
theorem nowhere_imports (hi : StudyInv s) {g d : String} (h : ∀ n, ¬ HasNode s g d n) (t : ℕ) : imports s D g d t = 0 := by
  unfold imports
  apply sumL_eq_zero
  rintro ⟨g', net⟩ hp
  have e1 : g' = g := by simpa using (List.mem_filter.mp hp).2
  replace hp := (List.mem_filter.mp hp).1
  subst e1
  apply sumL_eq_zero
  rintro ⟨d', n⟩ hq
  rw [sumI_congr (g := fun _ _ => 0), sumI_zero]
  intro l i ha
  rw [if_neg]
  rintro rfl
  obtain ⟨⟨d2, n2⟩, hm, rfl⟩ := List.mem_map.mp (hi.links g' net hp d' n hq l (mem_of_getElem?_some ha))
  exact h n2 ⟨net, hp, hm⟩

theorem nowhere_from (hi : StudyInv s) (hcomp : CompleteConverters s) {g d : String} (h : ∀ n, ¬ HasNode s g d n) (t : ℕ) :
    fromConverters s D g d t = 0 := by
  unfold fromConverters
  apply sumL_eq_zero
  intro p hp
  rw [if_neg]
  rintro ⟨rfl, rfl⟩
  rcases (hi.convs p hp).dest with ⟨_, _, h1, _⟩ | ⟨n, h1⟩
  · exact (hcomp p hp).1 h1
  · exact h n h1

theorem nowhere_to (hi : StudyInv s) {g d : String} (h : ∀ n, ¬ HasNode s g d n) (t : ℕ) : toConverters s D g d t = 0 := by
  unfold toConverters
  apply sumL_eq_zero
  intro p hp
  apply sumL_eq_zero
  rintro ⟨x, r⟩ hq
  rw [if_neg]
  rintro rfl
  obtain ⟨g', d', n, e1, hn⟩ := (hi.convs p hp).sources _ (List.mem_map.mpr ⟨_, hq, rfl⟩)
  simp only [List.cons.injEq, and_true] at e1
  obtain ⟨rfl, rfl⟩ := e1
  exact h n hn

include he hi hi' hc hS in
theorem still_cost : cost s' k D = cost s k D + idleCost s s' k := by
  have hh := he.horizon
  unfold cost idleCost
  rw [← hh, ← sumL_add]
  apply sumL_congr
  intro t ht
  have ht : t < s'.horizon := by simpa using ht
  rw [sumC_more hi hi' hc (f := fun p => fval p.2.cost k t * D.convDest p.1 t) (fun _ _ => rfl)
    (fun p hp => by rw [(hS.converters p hp t ht).1, mul_zero])]
  have key := he.sumN hi hi' (f := fun g d n => nodeCost k D g d n t) (f' := fun g d n => nodeCost k D g d n t)
    (e := fun g d n => (sumL (newIn (inNode s g d).consumptions n.consumptions) fun c => val c.cost k t * val c.quantity k t) +
      sumL (newIn (inNode s g d).storages n.storages) fun c => val c.cost k t * c.initCapacity) ?_ ?_
  · unfold sumN at key
    rw [key]
    ring
  · intro g d n n' hn hn' hx
    have e0 := inNode_eq hi hn
    unfold nodeCost
    rw [e0, sumI_prefix hx.consumptions (e := fun c => val c.cost k t * val c.quantity k t)
        (fun i c hl ha => by rw [hS.consumptions g d n' hn' i c (by rw [e0]; exact hl) ha t ht]),
      sumI_prefix hx.storages (e := fun c => val c.cost k t * c.initCapacity)
        (fun i c hl ha => by rw [(hS.storages g d n' hn' i c (by rw [e0]; exact hl) ha t ht).1]),
      sumI_prefix0 hx.productions
        (fun i c hl ha => by rw [hS.productions g d n' hn' i c (by rw [e0]; exact hl) ha t ht, mul_zero]),
      sumI_prefix0 hx.links
        (fun i c hl ha => by rw [hS.links g d n' hn' i c (by rw [e0]; exact hl) ha t ht, mul_zero])]
    ring
  · intro g d n' hn' hno
    have e0 := inNode_none hno
    have hx := he.nodeExt hi hi' hn'
    rw [e0] at hx
    unfold nodeCost
    rw [e0, sumI_prefix hx.consumptions (e := fun c => val c.cost k t * val c.quantity k t)
        (fun i c hl ha => by rw [hS.consumptions g d n' hn' i c (by rw [e0]; exact hl) ha t ht]),
      sumI_prefix hx.storages (e := fun c => val c.cost k t * c.initCapacity)
        (fun i c hl ha => by rw [(hS.storages g d n' hn' i c (by rw [e0]; exact hl) ha t ht).1]),
      sumI_prefix0 hx.productions
        (fun i c hl ha => by rw [hS.productions g d n' hn' i c (by rw [e0]; exact hl) ha t ht, mul_zero]),
      sumI_prefix0 hx.links
        (fun i c hl ha => by rw [hS.links g d n' hn' i c (by rw [e0]; exact hl) ha t ht, mul_zero])]
    simp [sumI]

/-! ### Feasibility, both ways -/

theorem prefix_get {α : Type} {l l' : List α} (h : l <+: l') {i : ℕ} (hl : i < l.length) : l'[i]? = l[i]? := by
  obtain ⟨m, rfl⟩ := h
  rw [List.getElem?_append_left hl]

include he hi in
theorem hasNode_inNode_of {g d : String} (h : ∃ n, HasNode s g d n) :
    HasNode s g d (inNode s g d) ∧ ∃ n', HasNode s' g d n' := by
  obtain ⟨n, hn⟩ := h
  obtain ⟨n', hn', _⟩ := he.hasNode hn
  refine ⟨?_, n', hn'⟩
  rw [inNode_eq hi hn]
  exact hn

include he hi hi' hc hS in
/-- a dispatch of the larger study in which new elements do nothing is a dispatch of the smaller one -/
theorem still_back (hf : CodeFeasible s' k D) : CodeFeasible s k D := by
  have hh := he.horizon
  have bk : ∀ {g d : String} {n : InputNode}, HasNode s g d n → ∃ n', HasNode s' g d n' ∧ NodeExt n n' ∧ inNode s g d = n :=
    fun hn => by
      obtain ⟨n', h1, h2⟩ := he.hasNode hn
      exact ⟨n', h1, h2, inNode_eq hi hn⟩
  have get : ∀ {α : Type} {l l' : List α} {i : ℕ} {a : α}, l <+: l' → l[i]? = some a → l'[i]? = some a :=
    fun hx ha => by rw [prefix_get hx (lt_of_getElem?_some ha), ha]
  refine ⟨⟨?_, ?_, ?_, ?_, ?_, ?_⟩, ?_, ?_, ?_⟩
  · intro g d n hn i c ha t ht
    obtain ⟨n', hn', hx, _⟩ := bk hn
    exact hf.bounds.consumptions g d n' hn' i c (get hx.consumptions ha) t (hh ▸ ht)
  · intro g d n hn i c ha t ht
    obtain ⟨n', hn', hx, _⟩ := bk hn
    exact hf.bounds.productions g d n' hn' i c (get hx.productions ha) t (hh ▸ ht)
  · intro g d n hn i c ha t ht
    obtain ⟨n', hn', hx, _⟩ := bk hn
    exact hf.bounds.storages g d n' hn' i c (get hx.storages ha) t (hh ▸ ht)
  · intro g d n hn i c ha t ht
    obtain ⟨n', hn', hx, _⟩ := bk hn
    exact hf.bounds.links g d n' hn' i c (get hx.links ha) t (hh ▸ ht)
  · intro p hp g d r hr t ht
    exact hf.bounds.convSrc p (hc p hp) g d r hr t (hh ▸ ht)
  · intro p hp t ht
    exact hf.bounds.convDest p (hc p hp) t (hh ▸ ht)
  · intro g d n hn t ht
    obtain ⟨n', hn', hx, e0⟩ := bk hn
    have ht' : t < s'.horizon := hh ▸ ht
    have := hf.balance g d n' hn' t ht'
    rwa [still_incoming he hi hi' hc hS hn' ht', still_outgoing he hi hi' hc hS hn' ht',
      still_selfFlow he hi hi' hS hn' ht', e0] at this
  · intro g d n hn c ha t ht
    obtain ⟨n', hn', hx, _⟩ := bk hn
    refine hf.storages g d n' hn' c ?_ t (hh ▸ ht)
    rw [List.head?_eq_getElem?] at ha ⊢
    exact get hx.storages ha
  · intro p hp g d r hr t ht
    exact hf.ratios p (hc p hp) g d r hr t (hh ▸ ht)

include he hi hi' hc hS in
/-- a dispatch of the smaller study, with new elements doing nothing, is a dispatch of the larger one -/
theorem still_forth (hcomp : CompleteConverters s) (hl : NewLimitsOk s s' k) (hf : CodeFeasible s k D) :
    CodeFeasible s' k D := by
  have hh := he.horizon
  -- an element of the larger study is new or was there
  have old : ∀ {α : Type} {F : InputNode → List α} {g d : String} {n' : InputNode} {i : ℕ} {a : α}, F ⟨[], [], [], []⟩ = [] →
      F (inNode s g d) <+: F n' → (F n')[i]? = some a →
      (i < (F (inNode s g d)).length ∧ HasNode s g d (inNode s g d) ∧ (F (inNode s g d))[i]? = some a) ∨
      ((F (inNode s g d)).length ≤ i ∧ a ∈ newIn (F (inNode s g d)) (F n')) := by
    intro α F g d n' i a h0 hx ha
    rcases lt_or_ge i (F (inNode s g d)).length with h | h
    · left
      refine ⟨h, ?_, by rw [← prefix_get hx h, ha]⟩
      by_cases hn : ∃ n, HasNode s g d n
      · exact (hasNode_inNode_of he hi hn).1
      · rw [inNode_none (not_exists.mp hn), h0] at h
        exact absurd h (Nat.not_lt_zero _)
    · right
      refine ⟨h, ?_⟩
      obtain ⟨m, hm⟩ := hx
      unfold newIn
      rw [← hm, List.drop_left]
      rw [← hm, List.getElem?_append_right h] at ha
      exact mem_of_getElem?_some ha
  have conv : ∀ p ∈ s'.converters, p ∈ s.converters ∨ NewConverter s s' p := by
    intro p hp
    by_cases hm : p.1 ∈ s.converters.map Prod.fst
    · left
      obtain ⟨q, hq, e1⟩ := List.mem_map.mp hm
      have : q = p := List.inj_on_of_nodup_map hi'.names.converters (hc q hq) hp e1
      exact this ▸ hq
    · exact .inr ⟨hp, hm⟩
  refine ⟨⟨?_, ?_, ?_, ?_, ?_, ?_⟩, ?_, ?_, ?_⟩
  · intro g d n' hn' i c ha t ht
    have hx := he.nodeExt hi hi' hn'
    rcases old (F := fun n => n.consumptions) rfl hx.consumptions ha with ⟨_, h2, h3⟩ | ⟨h1, h2⟩
    · exact hf.bounds.consumptions g d _ h2 i c h3 t (hh ▸ ht)
    · rw [hS.consumptions g d n' hn' i c h1 ha t ht]
      exact ⟨hl.consumptions g d n' hn' c h2 t ht, le_refl _⟩
  · intro g d n' hn' i c ha t ht
    have hx := he.nodeExt hi hi' hn'
    rcases old (F := fun n => n.productions) rfl hx.productions ha with ⟨_, h2, h3⟩ | ⟨h1, h2⟩
    · exact hf.bounds.productions g d _ h2 i c h3 t (hh ▸ ht)
    · rw [hS.productions g d n' hn' i c h1 ha t ht]
      exact ⟨le_refl _, hl.productions g d n' hn' c h2 t ht⟩
  · intro g d n' hn' i c ha t ht
    have hx := he.nodeExt hi hi' hn'
    rcases old (F := fun n => n.storages) rfl hx.storages ha with ⟨_, h2, h3⟩ | ⟨h1, h2⟩
    · exact hf.bounds.storages g d _ h2 i c h3 t (hh ▸ ht)
    · obtain ⟨e1, e2, e3⟩ := hS.storages g d n' hn' i c h1 ha t ht
      obtain ⟨l1, l2, l3, l4⟩ := hl.storages g d n' hn' c h2 t ht
      rw [e1, e2, e3]
      exact ⟨⟨l1, l2⟩, ⟨le_refl _, l3⟩, ⟨le_refl _, l4⟩⟩
  · intro g d n' hn' i c ha t ht
    have hx := he.nodeExt hi hi' hn'
    rcases old (F := fun n => n.links) rfl hx.links ha with ⟨_, h2, h3⟩ | ⟨h1, h2⟩
    · exact hf.bounds.links g d _ h2 i c h3 t (hh ▸ ht)
    · rw [hS.links g d n' hn' i c h1 ha t ht]
      exact ⟨le_refl _, hl.links g d n' hn' c h2 t ht⟩
  · intro p hp g d r hr t ht
    rcases conv p hp with h | h
    · exact hf.bounds.convSrc p h g d r hr t (hh ▸ ht)
    · rw [(hS.converters p h t ht).2 g d r hr]
      obtain ⟨l1, l2⟩ := hl.converters p h t ht
      exact ⟨le_refl _, fun _ => div_nonneg l1 (l2 _ hr)⟩
  · intro p hp t ht
    rcases conv p hp with h | h
    · exact hf.bounds.convDest p h t (hh ▸ ht)
    · rw [(hS.converters p h t ht).1]
      exact ⟨le_refl _, (hl.converters p h t ht).1⟩
  · intro g d n' hn' t ht
    rw [still_incoming he hi hi' hc hS hn' ht, still_outgoing he hi hi' hc hS hn' ht,
      still_selfFlow he hi hi' hS hn' ht]
    by_cases hn : ∃ n, HasNode s g d n
    · exact hf.balance g d _ (hasNode_inNode_of he hi hn).1 t (hh ▸ ht)
    · have hno := not_exists.mp hn
      unfold incoming outgoing selfFlow
      rw [inNode_none hno, nowhere_imports hi hno, nowhere_from hi hcomp hno, nowhere_to hi hno]
      simp [sumI]
  · intro g d n' hn' c ha t ht
    have hx := he.nodeExt hi hi' hn'
    rw [List.head?_eq_getElem?] at ha
    rcases old (F := fun n => n.storages) rfl hx.storages ha with ⟨_, h2, h3⟩ | ⟨h1, h2⟩
    · exact hf.storages g d _ h2 c (by rw [List.head?_eq_getElem?]; exact h3) t (hh ▸ ht)
    · unfold Evolves
      obtain ⟨e1, e2, e3⟩ := hS.storages g d n' hn' 0 c h1 ha t ht
      rw [e1, e2, e3]
      cases t with
      | zero => simp [levelBefore]
      | succ t =>
        rw [levelBefore, (hS.storages g d n' hn' 0 c h1 ha t (by omega)).1]
        ring
  · intro p hp g d r hr t ht
    rcases conv p hp with h | h
    · exact hf.ratios p h g d r hr t (hh ▸ ht)
    · rw [(hS.converters p h t ht).2 g d r hr, (hS.converters p h t ht).1, zero_mul]

end

/-! ### The extended dispatch -/

section

variable {s s' : Study} {k : ℕ} {D : Dispatch}

theorem extended_same (hi : StudyInv s) : SameFlows s D (extended s s' k D) where
  lol := fun g d n hn i h t _ => by simp only [extended, inNode_eq hi hn, if_pos h]
  prod := fun g d n hn i h t _ => by simp only [extended, inNode_eq hi hn, if_pos h]
  cap := fun g d n hn i h t _ => by simp only [extended, inNode_eq hi hn, if_pos h]
  fin := fun g d n hn i h t _ => by simp only [extended, inNode_eq hi hn, if_pos h]
  fout := fun g d n hn i h t _ => by simp only [extended, inNode_eq hi hn, if_pos h]
  link := fun g d n hn i h t _ => by simp only [extended, inNode_eq hi hn, if_pos h]
  convSrc := fun p hp g d _ t _ => by
    simp only [extended, if_pos (List.mem_map.mpr ⟨p, hp, rfl⟩ : p.1 ∈ s.converters.map Prod.fst)]
  convDest := fun p hp t _ => by
    simp only [extended, if_pos (List.mem_map.mpr ⟨p, hp, rfl⟩ : p.1 ∈ s.converters.map Prod.fst)]

theorem extended_still (hi' : StudyInv s') : Still s s' k (extended s s' k D) where
  consumptions := fun g d n hn i c hl ha t _ => by
    simp only [extended, if_neg (not_lt.mpr hl), inNode_eq hi' hn, ha]
  productions := fun g d n hn i c hl ha t _ => by simp only [extended, if_neg (not_lt.mpr hl)]
  storages := fun g d n hn i c hl ha t _ => by
    simp only [extended, if_neg (not_lt.mpr hl), inNode_eq hi' hn, ha, and_self]
  links := fun g d n hn i c hl ha t _ => by simp only [extended, if_neg (not_lt.mpr hl)]
  converters := fun p hp t _ => by
    refine ⟨?_, fun g d r _ => ?_⟩ <;> simp only [extended, if_neg hp.2]

/-- where nothing new can move, nothing new moves -/
theorem idle_still (he : StudyExt s s') (hi : StudyInv s) (hi' : StudyInv s') (hz : NewIdle s s' k)
    (hr : RatiosUsable s') (hk : k < s'.nbScn) (hb : Bounds s' k D) : Still s s' k D := by
  have new : ∀ {α : Type} {l l' : List α} {i : ℕ} {a : α}, l <+: l' → l.length ≤ i → l'[i]? = some a → a ∈ newIn l l' := by
    intro α l l' i a hx h ha
    obtain ⟨m, rfl⟩ := hx
    unfold newIn
    rw [List.drop_left]
    rw [List.getElem?_append_right h] at ha
    exact mem_of_getElem?_some ha
  refine ⟨?_, ?_, ?_, ?_, ?_⟩
  · intro g d n hn i c h ha t ht
    have := hb.consumptions g d n hn i c ha t ht
    have := hz.consumptions g d n hn c (new (he.nodeExt hi hi' hn).consumptions h ha) t ht
    linarith
  · intro g d n hn i c h ha t ht
    have := hb.productions g d n hn i c ha t ht
    have := hz.productions g d n hn c (new (he.nodeExt hi hi' hn).productions h ha) t ht
    linarith
  · intro g d n hn i c h ha t ht
    obtain ⟨b1, b2, b3⟩ := hb.storages g d n hn i c ha t ht
    obtain ⟨z1, z2, z3, z4⟩ := hz.storages g d n hn c (new (he.nodeExt hi hi' hn).storages h ha) t ht
    refine ⟨?_, ?_, ?_⟩ <;> linarith
  · intro g d n hn i c h ha t ht
    have := hb.links g d n hn i c ha t ht
    have := hz.links g d n hn c (new (he.nodeExt hi hi' hn).links h ha) t ht
    linarith
  · intro p hp t ht
    have hm := hz.converters p hp t ht
    have h1 := hb.convDest p hp.1 t ht
    refine ⟨by linarith, fun g d r hq => ?_⟩
    have h2 := hb.convSrc p hp.1 g d r hq t ht
    have hne : val r k t ≠ 0 := fun h => (hr p hp.1 _ hq k hk t ht h).1 hm
    have h3 := h2.2 hne
    rw [hm, zero_div] at h3
    linarith [h2.1]

end

end Hadar
