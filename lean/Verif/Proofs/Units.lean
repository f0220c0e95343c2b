import Verif.Spec.Units
import Verif.Proofs.Sensitivity
import Verif.Proofs.LPDispatch

/-!
# Each network has its own unit of energy: lemmas
-/

namespace Hadar

open Spec

variable {s s' : Study} {k k' : ℕ} {u : String → ℚ} {D : Dispatch}

theorem unitOf_eq (hi : StudyInv s) {p : String × Converter} (hp : p ∈ s.converters) : unitOf s u p.1 = u p.2.destNetwork := by
  have h : Dict.get? s.converters p.1 = some p.2 := Dict.get?_of_mem hi.names.converters hp
  simp only [unitOf, h]

section
variable (hi : StudyInv s) (hu : ∀ g, 0 < u g) (h : OtherUnits u s k s' k')
include h

theorem OtherUnits.time {t : ℕ} (ht : t < s'.horizon) : t < s.horizon := by rw [Alike.horizon h]; exact ht

theorem OtherUnits.imports (g d : String) (t : ℕ) : imports s' (inUnits s u D) g d t = u g * imports s D g d t := by
  unfold Spec.imports
  rw [← sumL_mul, sumL_filter, sumL_filter]
  symm
  apply sumL_rel (Alike.networks h)
  rintro ⟨g1, net⟩ _ ⟨g2, net'⟩ _ ⟨e, hnet⟩
  dsimp only at e hnet ⊢
  subst e
  by_cases hg : g1 = g
  · simp only [hg, decide_true, if_true]
    rw [← sumL_mul]
    apply sumL_rel hnet
    rintro ⟨d1, n⟩ _ ⟨d2, n'⟩ _ ⟨e, hN⟩
    dsimp only at e hN ⊢
    subst e
    rw [← sumI_mul]
    apply sumI_rel hN.links
    rintro i l l' _ _ ⟨e, -⟩
    rw [e]
    split_ifs
    · rfl
    · simp
  · simp [hg]

theorem OtherUnits.toConverters (g d : String) (t : ℕ) :
    toConverters s' (inUnits s u D) g d t = u g * toConverters s D g d t := by
  unfold Spec.toConverters
  rw [← sumL_mul]
  symm
  apply sumL_rel (Alike.converters h)
  rintro ⟨x, c⟩ _ ⟨y, c'⟩ _ ⟨e, hC⟩
  dsimp only at e hC ⊢
  subst e
  rw [← sumL_mul]
  apply sumL_rel hC.sources
  rintro q _ q' _ ⟨e, -⟩
  rw [e]
  split_ifs
  · rfl
  · simp

include hi in
theorem OtherUnits.fromConverters (g d : String) (t : ℕ) :
    fromConverters s' (inUnits s u D) g d t = u g * fromConverters s D g d t := by
  unfold Spec.fromConverters
  rw [← sumL_mul]
  symm
  apply sumL_rel (Alike.converters h)
  rintro p hp p' _ ⟨e, hC⟩
  rw [← hC.destNetwork, ← hC.destNode, ← e]
  split_ifs with hg
  · simp only [inUnits, unitOf_eq hi hp, hg.1]
  · simp

include hi in
theorem OtherUnits.incoming {g d : String} {n n' : InputNode} {c l a : ℚ → ℚ → Prop} (hN : NodeCmp s.horizon k k' c l a n n') (t : ℕ) :
    incoming s' (inUnits s u D) g d n' t = u g * incoming s D g d n t := by
  unfold Spec.incoming
  rw [OtherUnits.imports h, OtherUnits.fromConverters hi h, mul_add, mul_add, mul_add, ← sumI_mul, ← sumI_mul,
    sumI_rel hN.productions (g := fun _ i => u g * D.prod g d i t) (fun _ _ _ _ _ _ => rfl),
    sumI_rel hN.storages (g := fun _ i => u g * D.fout g d i t) (fun _ _ _ _ _ _ => rfl)]
  rfl

theorem OtherUnits.outgoing {g d : String} {n n' : InputNode} {c l : ℚ → ℚ → Prop}
    (hN : NodeCmp s.horizon k k' c l (fun x y => y = u g * x) n n') {t : ℕ} (ht : t < s.horizon) :
    outgoing s' k' (inUnits s u D) g d n' t = u g * outgoing s k D g d n t := by
  unfold Spec.outgoing
  rw [OtherUnits.toConverters h, mul_add, mul_add, mul_add, ← sumI_mul, ← sumI_mul, ← sumI_mul,
    sumI_rel hN.storages (g := fun _ i => u g * D.fin g d i t) (fun _ _ _ _ _ _ => rfl),
    sumI_rel hN.links (g := fun _ i => u g * D.link g d i t) (fun _ _ _ _ _ _ => rfl),
    sumI_rel hN.consumptions (g := fun (c : Consumption) i => val c.quantity k' t - u g * D.lol g d i t) (by
      rintro i c c' - - ⟨-, h⟩
      rw [h t ht]
      ring)]
  rfl

theorem OtherUnits.selfFlow {g d : String} {n n' : InputNode} {c l a : ℚ → ℚ → Prop} (hN : NodeCmp s.horizon k k' c l a n n') (t : ℕ) :
    selfFlow (inUnits s u D) g d n' t = u g * selfFlow D g d n t := by
  unfold Spec.selfFlow
  rw [← sumI_mul]
  symm
  apply sumI_rel hN.links
  rintro i l l' - - ⟨e, -⟩
  rw [e]
  split_ifs
  · rfl
  · simp

include hi hu in
theorem OtherUnits.bounds (hb : Bounds s k D) : Bounds s' k' (inUnits s u D) where
  consumptions := fun g d n' hn' i c' hc' t ht => by
    obtain ⟨n, hn, hN⟩ := Alike.node h hn'
    obtain ⟨c, hc, -, h2⟩ := forall₂_get_right hN.consumptions hc'
    have ht' := OtherUnits.time h ht
    have := hb.consumptions g d n hn i c hc t ht'
    rw [h2 t ht']
    exact ⟨mul_nonneg (hu g).le this.1, mul_le_mul_of_nonneg_left this.2 (hu g).le⟩
  productions := fun g d n' hn' i c' hc' t ht => by
    obtain ⟨n, hn, hN⟩ := Alike.node h hn'
    obtain ⟨c, hc, -, h2⟩ := forall₂_get_right hN.productions hc'
    have ht' := OtherUnits.time h ht
    have := hb.productions g d n hn i c hc t ht'
    rw [h2 t ht']
    exact ⟨mul_nonneg (hu g).le this.1, mul_le_mul_of_nonneg_left this.2 (hu g).le⟩
  storages := fun g d n' hn' i c' hc' t ht => by
    obtain ⟨n, hn, hN⟩ := Alike.node h hn'
    obtain ⟨c, hc, h1, h2, h3, -⟩ := forall₂_get_right hN.storages hc'
    have ht' := OtherUnits.time h ht
    obtain ⟨e1, e2, e3⟩ := hb.storages g d n hn i c hc t ht'
    rw [h1 t ht', h2 t ht', h3 t ht']
    exact ⟨⟨mul_nonneg (hu g).le e1.1, mul_le_mul_of_nonneg_left e1.2 (hu g).le⟩,
      ⟨mul_nonneg (hu g).le e2.1, mul_le_mul_of_nonneg_left e2.2 (hu g).le⟩,
      ⟨mul_nonneg (hu g).le e3.1, mul_le_mul_of_nonneg_left e3.2 (hu g).le⟩⟩
  links := fun g d n' hn' i c' hc' t ht => by
    obtain ⟨n, hn, hN⟩ := Alike.node h hn'
    obtain ⟨c, hc, -, -, h2⟩ := forall₂_get_right hN.links hc'
    have ht' := OtherUnits.time h ht
    have := hb.links g d n hn i c hc t ht'
    rw [h2 t ht']
    exact ⟨mul_nonneg (hu g).le this.1, mul_le_mul_of_nonneg_left this.2 (hu g).le⟩
  convSrc := fun p' hp' g d r' hr' t ht => by
    obtain ⟨p, hp, e, hC⟩ := Alike.conv h hp'
    obtain ⟨⟨key, r⟩, hq, e', hs⟩ := forall₂_mem_right hC.sources hr'
    dsimp only at e' hs
    subst e'
    have ht' := OtherUnits.time h ht
    have := hb.convSrc p hp g d r hq t ht'
    have h1 := hu g
    have h2 := hu p.2.destNetwork
    rw [← e, hs t ht', hC.max t ht']
    refine ⟨mul_nonneg h1.le this.1, fun hz => ?_⟩
    have hz' : val r k t ≠ 0 := fun h0 => hz (by rw [h0]; simp)
    have e2 : u p.2.destNetwork * fval p.2.max k t / (val r k t * u p.2.destNetwork / u g) = u g * (fval p.2.max k t / val r k t) := by
      field_simp
    show u g * D.convSrc p.1 (g, d) t ≤ u p.2.destNetwork * fval p.2.max k t / (val r k t * u p.2.destNetwork / u g)
    rw [e2]
    exact mul_le_mul_of_nonneg_left (this.2 hz') h1.le
  convDest := fun p' hp' t ht => by
    obtain ⟨p, hp, e, hC⟩ := Alike.conv h hp'
    have ht' := OtherUnits.time h ht
    have := hb.convDest p hp t ht'
    rw [← e, hC.max t ht']
    simp only [inUnits, unitOf_eq hi hp]
    exact ⟨mul_nonneg (hu _).le this.1, mul_le_mul_of_nonneg_left this.2 (hu _).le⟩

theorem OtherUnits.evolves {g d : String} {n n' : InputNode} {c l : ℚ → ℚ → Prop}
    (hN : NodeCmp s.horizon k k' c l (fun x y => y = u g * x) n n') {i : ℕ} {a' : Storage} (ha' : n'.storages[i]? = some a') {t : ℕ}
    (ht : t < s'.horizon) (he : ∀ a, n.storages[i]? = some a → Evolves k D g d i a t) :
    Evolves k' (inUnits s u D) g d i a' t := by
  obtain ⟨a, ha, -, -, -, -, h5, h6⟩ := forall₂_get_right hN.storages ha'
  have e := he a ha
  unfold Evolves at e ⊢
  rw [← h6 t (OtherUnits.time h ht)]
  cases t with
  | zero =>
    simp only [levelBefore, inUnits] at e ⊢
    rw [e, h5]
    ring
  | succ t =>
    simp only [levelBefore, inUnits] at e ⊢
    rw [e]
    ring

include hi hu in
theorem OtherUnits.ratios (hr : RatiosOk s k D) : RatiosOk s' k' (inUnits s u D) := by
  intro p' hp' g d r' hr' t ht
  obtain ⟨p, hp, e, hC⟩ := Alike.conv h hp'
  obtain ⟨⟨key, r⟩, hq, e', hs⟩ := forall₂_mem_right hC.sources hr'
  dsimp only at e' hs
  subst e'
  have ht' := OtherUnits.time h ht
  have e2 := hr p hp g d r hq t ht'
  rw [← e, hs t ht']
  simp only [inUnits, unitOf_eq hi hp, srcPair]
  rw [← e2]
  have h1 := (hu g).ne'
  field_simp

include hi hu in
theorem OtherUnits.codeFeasible (hf : CodeFeasible s k D) : CodeFeasible s' k' (inUnits s u D) where
  bounds := OtherUnits.bounds hi hu h hf.bounds
  balance := fun g d n' hn' t ht => by
    obtain ⟨n, hn, hN⟩ := Alike.node h hn'
    have ht' := OtherUnits.time h ht
    rw [OtherUnits.incoming hi h hN, OtherUnits.outgoing h hN ht', OtherUnits.selfFlow h hN, ← hf.balance g d n hn t ht']
    ring
  storages := fun g d n' hn' c' hc' t ht => by
    obtain ⟨n, hn, hN⟩ := Alike.node h hn'
    rw [List.head?_eq_getElem?] at hc'
    exact OtherUnits.evolves h hN hc' ht fun a ha =>
      hf.storages g d n hn a (by rw [List.head?_eq_getElem?]; exact ha) t (OtherUnits.time h ht)
  ratios := OtherUnits.ratios hi hu h hf.ratios

include hi hu in
theorem OtherUnits.feasible (hf : Spec.Feasible s k D) : Spec.Feasible s' k' (inUnits s u D) where
  bounds := OtherUnits.bounds hi hu h hf.bounds
  balanced := fun g d n' hn' t ht => by
    obtain ⟨n, hn, hN⟩ := Alike.node h hn'
    have ht' := OtherUnits.time h ht
    rw [OtherUnits.incoming hi h hN, OtherUnits.outgoing h hN ht', hf.balanced g d n hn t ht']
  storages := fun g d n' hn' i c' hc' t ht => by
    obtain ⟨n, hn, hN⟩ := Alike.node h hn'
    exact OtherUnits.evolves h hN hc' ht fun a ha => hf.storages g d n hn i a ha t (OtherUnits.time h ht)
  ratios := OtherUnits.ratios hi hu h hf.ratios

include hi in
theorem OtherUnits.cost : cost s' k' (inUnits s u D) = cost s k D := by
  unfold Spec.cost
  rw [← Alike.horizon h]
  apply sumL_congr
  intro t ht
  have ht : t < s.horizon := by simpa using ht
  congr 1
  · symm
    apply sumL_rel (Alike.networks h)
    rintro ⟨g, net⟩ - ⟨g', net'⟩ - ⟨e, hnet⟩
    dsimp only at e hnet ⊢
    subst e
    apply sumL_rel hnet
    rintro ⟨d, n⟩ - ⟨d', n'⟩ - ⟨e, hN⟩
    dsimp only at e hN ⊢
    subst e
    unfold nodeCost
    refine congrArg₂ (· + ·) (congrArg₂ (· + ·) (congrArg₂ (· + ·) ?_ ?_) ?_) ?_
    · apply sumI_rel hN.consumptions
      rintro i c c' - - ⟨h, -⟩
      simp only [inUnits]
      rw [h t ht]
      ring
    · apply sumI_rel hN.productions
      rintro i c c' - - ⟨h, -⟩
      simp only [inUnits]
      rw [h t ht]
      ring
    · apply sumI_rel hN.storages
      rintro i c c' - - ⟨-, -, -, h, -⟩
      simp only [inUnits]
      rw [h t ht]
      ring
    · apply sumI_rel hN.links
      rintro i c c' - - ⟨-, h, -⟩
      simp only [inUnits]
      rw [h t ht]
      ring
  · symm
    apply sumL_rel (Alike.converters h)
    rintro p hp p' - ⟨e, hC⟩
    rw [← e, hC.cost t ht]
    simp only [inUnits, unitOf_eq hi hp]
    ring

include hu in
/-- back to the former units -/
theorem OtherUnits.back : OtherUnits (fun g => 1 / u g) s' k' s k where
  horizon := (Alike.horizon h).symm
  networks := by
    rw [← Alike.horizon h]
    refine ((Alike.networks h).imp ?_).flip
    rintro ⟨g, net⟩ ⟨g', net'⟩ ⟨e, hnet⟩
    dsimp only at e hnet ⊢
    subst e
    refine ⟨rfl, (hnet.imp ?_).flip⟩
    rintro ⟨d, n⟩ ⟨d', n'⟩ ⟨e', hN⟩
    have hne := (hu g).ne'
    refine ⟨e'.symm, ?_, ?_, ?_, ?_⟩
    · refine (hN.consumptions.imp ?_).flip
      rintro a b ⟨h1, h2⟩
      exact ⟨fun t ht => by rw [h1 t ht]; field_simp, fun t ht => by rw [h2 t ht]; field_simp⟩
    · refine (hN.productions.imp ?_).flip
      rintro a b ⟨h1, h2⟩
      exact ⟨fun t ht => by rw [h1 t ht]; field_simp, fun t ht => by rw [h2 t ht]; field_simp⟩
    · refine (hN.storages.imp ?_).flip
      rintro a b ⟨h1, h2, h3, h4, h5, h6⟩
      exact ⟨fun t ht => by rw [h1 t ht]; field_simp, fun t ht => by rw [h2 t ht]; field_simp,
        fun t ht => by rw [h3 t ht]; field_simp, fun t ht => by rw [h4 t ht]; field_simp, by rw [h5]; field_simp,
        fun t ht => (h6 t ht).symm⟩
    · refine (hN.links.imp ?_).flip
      rintro a b ⟨h1, h2, h3⟩
      exact ⟨h1.symm, fun t ht => by rw [h2 t ht]; field_simp, fun t ht => by rw [h3 t ht]; field_simp⟩
  converters := by
    rw [← Alike.horizon h]
    refine ((Alike.converters h).imp ?_).flip
    rintro p p' ⟨e, hC⟩
    have hne := (hu p.2.destNetwork).ne'
    refine ⟨e.symm, ?_, hC.destNetwork.symm, hC.destNode.symm, ?_, ?_⟩
    · refine (hC.sources.imp ?_).flip
      rintro a b ⟨h1, h2⟩
      refine ⟨h1.symm, fun t ht => ?_⟩
      have hne' := (hu (srcPair a.1).1).ne'
      rw [h2 t ht, ← hC.destNetwork, ← h1]
      field_simp
    · intro t ht
      rw [hC.cost t ht, ← hC.destNetwork]
      field_simp
    · intro t ht
      rw [hC.max t ht, ← hC.destNetwork]
      field_simp

end

instance (u : String → ℚ) (h k k' : ℕ) (c c' : Converter) : Decidable (UnitConverter u h k k' c c') :=
  decidable_of_iff (_ ∧ _ ∧ _ ∧ _ ∧ _) ⟨fun h => ⟨h.1, h.2.1, h.2.2.1, h.2.2.2.1, h.2.2.2.2⟩, fun h => ⟨h.1, h.2, h.3, h.4, h.5⟩⟩

instance (u : String → ℚ) (s s' : Study) (k k' : ℕ) : Decidable (OtherUnits u s k s' k') :=
  decidable_of_iff (_ ∧ _ ∧ _) ⟨fun h => ⟨h.1, h.2.1, h.2.2⟩, fun h => ⟨h.1, h.2, h.3⟩⟩

end Hadar
