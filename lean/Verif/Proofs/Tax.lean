import Verif.Spec.Tax
import Verif.Proofs.Sensitivity
import Verif.Proofs.Prices

/-!
# Charging for what elements do: lemmas
-/

namespace Hadar

open Spec

variable {s s' : Study} {k k' : ℕ} {x : ℚ} {w : Element → ℕ → ℚ} {D : Dispatch}

theorem Taxed.compared (h : Taxed x w s k s' k') : Compared (fun _ _ => True) Eq Eq s k s' k' where
  horizon := Alike.horizon h
  networks := (Alike.networks h).imp fun _ _ h => ⟨h.1, h.2.imp fun _ _ h => ⟨h.1, h.2.same⟩⟩
  converters := (Alike.converters h).imp fun _ _ h => ⟨h.1, h.2.same⟩

/-- what can be done does not depend on costs -/
theorem Compared.sameFeasible (h : Compared (fun _ _ => True) Eq Eq s k s' k') (hf : CodeFeasible s k D) : CodeFeasible s' k' D := by
  have h' : Compared (fun _ _ => True) Eq (fun x y => y = 1 * x) s k s' k' :=
    Compared.imp (fun _ _ h => h) (fun _ _ h => h) (fun _ _ h => by rw [h, one_mul]) h
  have := Compared.codeFeasible' zero_le_one h' (fun _ _ h => by rw [h, one_mul]) (fun _ _ _ _ _ _ _ _ h => by rw [h, one_mul]) hf
  rwa [Dispatch.scale_one] at this

theorem sumI_charged {α : Type} {h : ℕ} {v : ℕ → ℕ → ℚ} {c : α → NumVal} {l l' : List α} (hc : Charged h k k' x v c l l') {t : ℕ}
    (ht : t < h) (q : ℕ → ℚ) :
    sumI l' (fun a i => val (c a) k' t * q i) = sumI l (fun a i => val (c a) k t * q i) + x * sumI l (fun _ i => v i t * q i) := by
  have key : ∀ (j : ℕ) (l l' : List α), List.Forall₂ (fun a b => ∀ t < h, val (c b.1) k' t = val (c a.1) k t + x * v a.2 t) (l.zipIdx j) (l'.zipIdx j) →
      ((l'.zipIdx j).map fun p => val (c p.1) k' t * q p.2).sum =
        ((l.zipIdx j).map fun p => val (c p.1) k t * q p.2).sum + x * ((l.zipIdx j).map fun p => v p.2 t * q p.2).sum := by
    intro j l
    induction l generalizing j with
    | nil => intro l' h; cases l' with
      | nil => simp
      | cons b l' => simp [List.zipIdx_cons] at h
    | cons a l ih => intro l' h; cases l' with
      | nil => simp [List.zipIdx_cons] at h
      | cons b l' =>
        rw [List.zipIdx_cons, List.zipIdx_cons, List.forall₂_cons] at h
        rw [List.zipIdx_cons, List.zipIdx_cons, List.map_cons, List.map_cons, List.map_cons, List.sum_cons, List.sum_cons, List.sum_cons,
          ih _ _ h.2, h.1 t ht]
        ring
  exact key 0 l l' hc

/-- the cost of a dispatch grows by what is charged -/
theorem Taxed.cost (h : Taxed x w s k s' k') (D : Dispatch) : cost s' k' D = cost s k D + x * weighed s w D := by
  unfold Spec.cost weighed
  rw [← Alike.horizon h, ← sumL_mul, ← sumL_add]
  apply sumL_congr
  intro t ht
  have ht : t < s.horizon := by simpa using ht
  have e1 : (sumL s'.networks fun p => sumL p.2.nodes fun q => nodeCost k' D p.1 q.1 q.2 t) =
      sumL s.networks fun p => sumL p.2.nodes fun q => nodeCost k D p.1 q.1 q.2 t + x * (
      sumI q.2.consumptions (fun _ i => w (.load p.1 q.1 i) t * (Element.load p.1 q.1 i).flow D t) +
      sumI q.2.productions (fun _ i => w (.prod p.1 q.1 i) t * (Element.prod p.1 q.1 i).flow D t) +
      sumI q.2.storages (fun _ i => w (.stor p.1 q.1 i) t * (Element.stor p.1 q.1 i).flow D t) +
      sumI q.2.links (fun _ i => w (.link p.1 q.1 i) t * (Element.link p.1 q.1 i).flow D t)) := by
    symm
    apply sumL_rel (Alike.networks h)
    rintro ⟨g, net⟩ - ⟨g', net'⟩ - ⟨e, hnet⟩
    dsimp only at e hnet ⊢
    subst e
    apply sumL_rel hnet
    rintro ⟨d, n⟩ - ⟨d', n'⟩ - ⟨e, hN⟩
    dsimp only at e hN ⊢
    subst e
    unfold nodeCost
    have a1 := sumI_charged hN.consumptions ht fun i => D.lol g d i t
    have a2 := sumI_charged hN.productions ht fun i => D.prod g d i t
    have a3 := sumI_charged hN.storages ht fun i => D.cap g d i t
    have a4 := sumI_charged hN.links ht fun i => D.link g d i t
    rw [a1, a2, a3, a4]
    simp only [Element.flow]
    ring
  have e2 : (sumL s'.converters fun p => fval p.2.cost k' t * D.convDest p.1 t) =
      sumL s.converters fun p => fval p.2.cost k t * D.convDest p.1 t + x * (w (.conv p.1) t * (Element.conv p.1).flow D t) := by
    symm
    apply sumL_rel (Alike.converters h)
    rintro ⟨c, cv⟩ - ⟨c', cv'⟩ - ⟨e, hC⟩
    dsimp only at e hC ⊢
    subst e
    rw [hC.cost t ht]
    simp only [Element.flow]
    ring
  rw [e1, e2, sumL_add, sumL_mul]
  simp only [sumL_add, sumL_mul]
  ring

theorem sumL_only {α : Type} {l : List α} (hn : l.Nodup) {a : α} (ha : a ∈ l) {f : α → ℚ} (h : ∀ b ∈ l, b ≠ a → f b = 0) :
    sumL l f = f a := by
  have := sumL_bump hn ha (f := f) (g := fun _ => 0) (e := f a) (by simp) h
  rw [this, sumL_eq_zero fun _ _ => rfl, zero_add]

theorem sumN_only (hi : StudyInv s) {g d : String} {n : InputNode} (hn : HasNode s g d n) {f : String → String → InputNode → ℚ}
    (h : ∀ g' d' n', ¬ (g' = g ∧ d' = d) → f g' d' n' = 0) :
    (sumL s.networks fun p => sumL p.2.nodes fun q => f p.1 q.1 q.2) = f g d n := by
  obtain ⟨net, hg, hd⟩ := hn
  rw [sumL_only hi.names.networks.of_map hg (f := fun p => sumL p.2.nodes fun q => f p.1 q.1 q.2) ?_,
    sumL_only (hi.names.nodes _ hg).of_map hd (f := fun q => f g q.1 q.2) ?_]
  · rintro ⟨d', n'⟩ hd' hne
    apply h
    rintro ⟨-, rfl⟩
    exact hne (List.inj_on_of_nodup_map (hi.names.nodes _ hg) hd' hd rfl)
  · rintro ⟨g', net'⟩ hg' hne
    apply sumL_eq_zero
    rintro ⟨d', n'⟩ -
    apply h
    rintro ⟨rfl, -⟩
    exact hne (List.inj_on_of_nodup_map hi.names.networks hg' hg rfl)

theorem sumI_only {α : Type} {l : List α} {i : ℕ} (hi : i < l.length) {f : ℕ → ℚ} (h : ∀ j, j ≠ i → f j = 0) :
    sumI l (fun _ j => f j) = f i :=
  sumI_pick (List.getElem?_eq_getElem hi) fun _ j hj => h j hj

/-- with a weight of 1 for one element at some time steps, what is weighed is what this element does then -/
theorem weighed_onlyAt (hi : StudyInv s) {e : Element} (he : e.In s) (T : List ℕ) (D : Dispatch) :
    weighed s (onlyAt e T) D = sumL ((List.range s.horizon).filter (· ∈ T)) fun t => e.flow D t := by
  unfold weighed
  rw [sumL_filter]
  apply sumL_congr
  intro t _
  by_cases hT : t ∈ T
  · simp only [onlyAt, hT, and_true, decide_true, if_true]
    cases e with
    | load g d i =>
      obtain ⟨n, hn, hl⟩ := he
      simp only [reduceCtorEq, if_false, zero_mul, sumI_zero, add_zero]
      rw [sumL_eq_zero (l := s.converters) fun _ _ => rfl, add_zero]
      rw [sumN_only hi hn (f := fun g' d' n' => sumI n'.consumptions fun _ j =>
        (if Element.load g' d' j = .load g d i then 1 else 0) * (Element.load g' d' j).flow D t)]
      · rw [sumI_only hl (f := fun j => (if Element.load g d j = .load g d i then 1 else 0) * (Element.load g d j).flow D t)]
        · simp
        · intro j hj; simp [hj]
      · intro g' d' n' hne
        rw [show (fun (_ : Consumption) (j : ℕ) => (if Element.load g' d' j = .load g d i then (1 : ℚ) else 0) * (Element.load g' d' j).flow D t) = fun _ _ => 0 from ?_, sumI_zero]
        funext _ j
        rw [if_neg (by intro h; cases h; exact hne ⟨rfl, rfl⟩), zero_mul]
    | prod g d i =>
      obtain ⟨n, hn, hl⟩ := he
      simp only [reduceCtorEq, if_false, zero_mul, sumI_zero, add_zero, zero_add]
      rw [sumL_eq_zero (l := s.converters) fun _ _ => rfl, add_zero]
      rw [sumN_only hi hn (f := fun g' d' n' => sumI n'.productions fun _ j =>
        (if Element.prod g' d' j = .prod g d i then 1 else 0) * (Element.prod g' d' j).flow D t)]
      · rw [sumI_only hl (f := fun j => (if Element.prod g d j = .prod g d i then 1 else 0) * (Element.prod g d j).flow D t)]
        · simp
        · intro j hj; simp [hj]
      · intro g' d' n' hne
        rw [show (fun (_ : Production) (j : ℕ) => (if Element.prod g' d' j = .prod g d i then (1 : ℚ) else 0) * (Element.prod g' d' j).flow D t) = fun _ _ => 0 from ?_, sumI_zero]
        funext _ j
        rw [if_neg (by intro h; cases h; exact hne ⟨rfl, rfl⟩), zero_mul]
    | stor g d i =>
      obtain ⟨n, hn, hl⟩ := he
      simp only [reduceCtorEq, if_false, zero_mul, sumI_zero, add_zero, zero_add]
      rw [sumL_eq_zero (l := s.converters) fun _ _ => rfl, add_zero]
      rw [sumN_only hi hn (f := fun g' d' n' => sumI n'.storages fun _ j =>
        (if Element.stor g' d' j = .stor g d i then 1 else 0) * (Element.stor g' d' j).flow D t)]
      · rw [sumI_only hl (f := fun j => (if Element.stor g d j = .stor g d i then 1 else 0) * (Element.stor g d j).flow D t)]
        · simp
        · intro j hj; simp [hj]
      · intro g' d' n' hne
        rw [show (fun (_ : Storage) (j : ℕ) => (if Element.stor g' d' j = .stor g d i then (1 : ℚ) else 0) * (Element.stor g' d' j).flow D t) = fun _ _ => 0 from ?_, sumI_zero]
        funext _ j
        rw [if_neg (by intro h; cases h; exact hne ⟨rfl, rfl⟩), zero_mul]
    | link g d i =>
      obtain ⟨n, hn, hl⟩ := he
      simp only [reduceCtorEq, if_false, zero_mul, sumI_zero, add_zero, zero_add]
      rw [sumL_eq_zero (l := s.converters) fun _ _ => rfl, add_zero]
      rw [sumN_only hi hn (f := fun g' d' n' => sumI n'.links fun _ j =>
        (if Element.link g' d' j = .link g d i then 1 else 0) * (Element.link g' d' j).flow D t)]
      · rw [sumI_only hl (f := fun j => (if Element.link g d j = .link g d i then 1 else 0) * (Element.link g d j).flow D t)]
        · simp
        · intro j hj; simp [hj]
      · intro g' d' n' hne
        rw [show (fun (_ : Link) (j : ℕ) => (if Element.link g' d' j = .link g d i then (1 : ℚ) else 0) * (Element.link g' d' j).flow D t) = fun _ _ => 0 from ?_, sumI_zero]
        funext _ j
        rw [if_neg (by intro h; cases h; exact hne ⟨rfl, rfl⟩), zero_mul]
    | conv c =>
      obtain ⟨p, hp, rfl⟩ := he
      simp only [reduceCtorEq, if_false, zero_mul, sumI_zero, add_zero]
      rw [sumL_eq_zero (l := s.networks) fun _ _ => sumL_eq_zero fun _ _ => rfl, zero_add,
        sumL_only hi.names.converters.of_map hp]
      · simp
      · rintro q hq hne
        rw [if_neg fun h => hne (List.inj_on_of_nodup_map hi.names.converters hq hp (Element.conv.inj h)), zero_mul]
  · simp only [onlyAt, hT, and_false, decide_false, if_false, zero_mul, sumI_zero, add_zero]
    rw [sumL_eq_zero (l := s.networks) fun _ _ => sumL_eq_zero fun _ _ => rfl, sumL_eq_zero (l := s.converters) fun _ _ => rfl, add_zero]
    simp

instance {α : Type} (h k k' : ℕ) (x : ℚ) (v : ℕ → ℕ → ℚ) (c : α → NumVal) (l l' : List α) : Decidable (Charged h k k' x v c l l') := by
  unfold Charged; infer_instance

instance (h k k' : ℕ) (g d : String) (n n' : InputNode) : Decidable (TaxedNode x w h k k' g d n n') :=
  decidable_of_iff (_ ∧ _ ∧ _ ∧ _ ∧ _) ⟨fun h => ⟨h.1, h.2.1, h.2.2.1, h.2.2.2.1, h.2.2.2.2⟩, fun h => ⟨h.1, h.2, h.3, h.4, h.5⟩⟩

instance (h k k' : ℕ) (a : String) (c c' : Converter) : Decidable (TaxedConverter x w h k k' a c c') :=
  decidable_of_iff (_ ∧ _) ⟨fun h => ⟨h.1, h.2⟩, fun h => ⟨h.1, h.2⟩⟩

instance (s s' : Study) (k k' : ℕ) : Decidable (Taxed x w s k s' k') :=
  decidable_of_iff (_ ∧ _ ∧ _) ⟨fun h => ⟨h.1, h.2.1, h.2.2⟩, fun h => ⟨h.1, h.2, h.3⟩⟩

end Hadar
