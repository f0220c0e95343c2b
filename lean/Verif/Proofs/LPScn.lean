import Verif.Proofs.LPDispatch

/-!
# Scenarios are independent; the result mirrors the study; a valid study is feasible
-/

namespace Hadar

open Spec

theorem Forall₂.map_eq {α β γ : Type} {R : α → β → Prop} {l : List α} {l' : List β}
    (h : List.Forall₂ R l l') {f : α → γ} {g : β → γ} (hfg : ∀ a b, R a b → f a = g b) :
    l.map f = l'.map g := by
  induction h with
  | nil => rfl
  | cons hab _ ih => rw [List.map_cons, List.map_cons, hfg _ _ hab, ih]

theorem Forall₂.flatMap_eq {α β γ : Type} {R : α → β → Prop} {l : List α} {l' : List β}
    (h : List.Forall₂ R l l') {f : α → List γ} {g : β → List γ} (hfg : ∀ a b, R a b → f a = g b) :
    l.flatMap f = l'.flatMap g := by
  induction h with
  | nil => rfl
  | cons hab _ ih => rw [List.flatMap_cons, List.flatMap_cons, hfg _ _ hab, ih]

theorem Forall₂.zipIdx {α β : Type} {R : α → β → Prop} {l : List α} {l' : List β}
    (h : List.Forall₂ R l l') (i : ℕ) :
    List.Forall₂ (fun p q => R p.1 q.1 ∧ p.2 = q.2) (l.zipIdx i) (l'.zipIdx i) := by
  induction h generalizing i with
  | nil => exact .nil
  | cons hab _ ih => exact .cons ⟨hab, rfl⟩ (ih (i + 1))

theorem lpNodeOf_same {h k k' : ℕ} {n n' : InputNode} (hs : SameNode h k k' n n') (g d : String)
    {t : ℕ} (ht : t < h) : lpNodeOf g d k t n = lpNodeOf g d k' t n' := by
  unfold lpNodeOf
  congr 1
  · apply Forall₂.map_eq (Forall₂.zipIdx hs.consumptions 0)
    rintro ⟨a, i⟩ ⟨b, j⟩ ⟨⟨h1, h2, h3⟩, rfl⟩
    dsimp only at h1 h2 h3 ⊢
    rw [h1, h2 t ht, h3 t ht]
  · apply Forall₂.map_eq (Forall₂.zipIdx hs.productions 0)
    rintro ⟨a, i⟩ ⟨b, j⟩ ⟨⟨h1, h2, h3⟩, rfl⟩
    dsimp only at h1 h2 h3 ⊢
    rw [h1, h2 t ht, h3 t ht]
  · apply Forall₂.map_eq (Forall₂.zipIdx hs.storages 0)
    rintro ⟨a, i⟩ ⟨b, j⟩ ⟨⟨h1, h2, h3, h4, h5, h6, h7⟩, rfl⟩
    dsimp only at h1 h2 h3 h4 h5 h6 h7 ⊢
    rw [h1, h2 t ht, h3 t ht, h4 t ht, h5 t ht, h6, h7 t ht]
  · apply Forall₂.map_eq (Forall₂.zipIdx hs.links 0)
    rintro ⟨a, i⟩ ⟨b, j⟩ ⟨⟨h1, h2, h3⟩, rfl⟩
    dsimp only at h1 h2 h3 ⊢
    rw [h1, h2 t ht, h3 t ht]

theorem storLog_same {h k k' : ℕ} {n n' : InputNode} (hs : SameNode h k k' n n') (g d : String)
    {t : ℕ} (ht : t < h) : storLog g d k t n = storLog g d k' t n' := by
  unfold storLog
  have := hs.storages
  generalize n.storages = l at this
  generalize n'.storages = l' at this
  cases this with
  | nil => rfl
  | cons hab _ =>
    obtain ⟨h1, h2, h3, h4, h5, h6, h7⟩ := hab
    dsimp only
    rw [h1, h6, h7 t ht]

theorem nodeLog_same {h k k' : ℕ} {n n' : InputNode} (hs : SameNode h k k' n n') (g d : String)
    {t : ℕ} (ht : t < h) : nodeLog g d k t n = nodeLog g d k' t n' := by
  unfold nodeLog
  rw [lpNodeOf_same hs g d ht, storLog_same hs g d ht]

theorem convLog_same {h k k' : ℕ} {c c' : Converter} (hs : SameConverter h k k' c c')
    {t : ℕ} (ht : t < h) : convLog k t c = convLog k' t c' := by
  unfold convLog convVars convAdeq convMix
  rw [hs.name, hs.destNetwork, hs.destNode, hs.cost t ht, hs.max t ht]
  have e1 : (c.srcRatios.map fun p => srcVar (.convSrc t c'.name p.1)
      (fval c'.max k' t) (val p.2 k t)) = c'.srcRatios.map fun p =>
      srcVar (.convSrc t c'.name p.1) (fval c'.max k' t) (val p.2 k' t) := by
    apply Forall₂.map_eq hs.sources
    rintro ⟨a, v⟩ ⟨b, w⟩ ⟨rfl, h2⟩
    dsimp only at h2 ⊢
    rw [h2 t ht]
  have e2 : (c.srcRatios.map fun p => Cmd.setCoef (.adeq t (p.1.getD 0 "") (p.1.getD 1 ""))
      (.convSrc t c'.name p.1) (-1)) = c'.srcRatios.map fun p =>
      .setCoef (.adeq t (p.1.getD 0 "") (p.1.getD 1 "")) (.convSrc t c'.name p.1) (-1) := by
    apply Forall₂.map_eq hs.sources
    rintro ⟨a, v⟩ ⟨b, w⟩ ⟨rfl, h2⟩
    rfl
  have e3 : (c.srcRatios.flatMap fun p => [Cmd.constraint (.mix t c'.name p.1) 0 0,
      .setCoef (.mix t c'.name p.1) (.convSrc t c'.name p.1) (val p.2 k t),
      .setCoef (.mix t c'.name p.1) (.convDest t c'.name) (-1)]) = c'.srcRatios.flatMap fun p =>
      [.constraint (.mix t c'.name p.1) 0 0,
      .setCoef (.mix t c'.name p.1) (.convSrc t c'.name p.1) (val p.2 k' t),
      .setCoef (.mix t c'.name p.1) (.convDest t c'.name) (-1)] := by
    apply Forall₂.flatMap_eq hs.sources
    rintro ⟨a, v⟩ ⟨b, w⟩ ⟨rfl, h2⟩
    dsimp only at h2 ⊢
    rw [h2 t ht]
  rw [e1, e2, e3]

theorem fullLog_same {s s' : Study} {k k' : ℕ} (hs : SameScenario s k s' k') :
    fullLog s k = fullLog s' k' := by
  unfold fullLog importLog
  rw [← hs.horizon]
  congr 1
  · apply List.flatMap_congr
    intro t ht
    have ht : t < s.horizon := by simpa using ht
    unfold timeLog
    congr 1
    · apply Forall₂.flatMap_eq hs.networks
      rintro ⟨g, a⟩ ⟨g', b⟩ ⟨rfl, h2⟩
      apply Forall₂.flatMap_eq h2
      rintro ⟨d, a⟩ ⟨d', b⟩ ⟨rfl, h3⟩
      exact nodeLog_same h3 _ _ ht
    · apply Forall₂.flatMap_eq hs.converters
      rintro ⟨c, a⟩ ⟨c', b⟩ ⟨rfl, h2⟩
      exact convLog_same h2 ht
  · apply List.flatMap_congr
    intro t ht
    congr 1
    unfold timeImports
    apply Forall₂.flatMap_eq hs.networks
    rintro ⟨g, a⟩ ⟨g', b⟩ ⟨rfl, h2⟩
    apply Forall₂.flatMap_eq h2
    rintro ⟨d, a⟩ ⟨d', b⟩ ⟨rfl, h3⟩
    unfold nodeImports
    apply Forall₂.map_eq (Forall₂.zipIdx h3.links 0)
    rintro ⟨a, i⟩ ⟨b, j⟩ ⟨⟨h1, _, _⟩, rfl⟩
    dsimp only at h1 ⊢
    rw [h1]

theorem Forall₂.exists_left {α β : Type} {R : α → β → Prop} {l : List α} {l' : List β}
    (h : List.Forall₂ R l l') {a : α} (ha : a ∈ l) : ∃ b ∈ l', R a b := by
  induction h with
  | nil => simp at ha
  | cons hab _ ih =>
    rcases List.mem_cons.mp ha with rfl | ha
    · exact ⟨_, by simp, hab⟩
    · obtain ⟨b, hb, h⟩ := ih ha
      exact ⟨b, by simp [hb], h⟩

theorem SameScenario.hasNode {s s' : Study} {k k' : ℕ} (hs : SameScenario s k s' k') {g d : String}
    {n : InputNode} (hn : HasNode s g d n) : ∃ n', HasNode s' g d n' ∧ SameNode s.horizon k k' n n' := by
  obtain ⟨net, hg, hd⟩ := hn
  obtain ⟨⟨g', net'⟩, hg', rfl, h2⟩ := Forall₂.exists_left hs.networks hg
  obtain ⟨⟨d', n'⟩, hd', rfl, h3⟩ := Forall₂.exists_left h2 hd
  exact ⟨n', ⟨net', hg', hd'⟩, h3⟩

theorem SameScenario.converter {s s' : Study} {k k' : ℕ} (hs : SameScenario s k s' k')
    {p : String × Converter} (hp : p ∈ s.converters) : ∃ q ∈ s'.converters, p.1 = q.1 ∧
      ∀ key, key ∈ p.2.srcRatios.map Prod.fst → key ∈ q.2.srcRatios.map Prod.fst := by
  obtain ⟨q, hq, h1, h2⟩ := Forall₂.exists_left hs.converters hp
  refine ⟨q, hq, h1, ?_⟩
  intro key hkey
  obtain ⟨x, hx, rfl⟩ := List.mem_map.mp hkey
  obtain ⟨y, hy, e, _⟩ := Forall₂.exists_left h2.sources hx
  exact List.mem_map.mpr ⟨y, hy, e.symm⟩

theorem SameFlows.transport {s s' : Study} {k k' : ℕ} (hs : SameScenario s k s' k') {D D' : Dispatch}
    (h : SameFlows s' D D') : SameFlows s D D' where
  lol := fun g d n hn i hi t ht => by
    obtain ⟨n', hn', hsame⟩ := SameScenario.hasNode hs hn
    exact h.lol g d n' hn' i (by rw [← hsame.consumptions.length_eq]; exact hi) t (hs.horizon ▸ ht)
  prod := fun g d n hn i hi t ht => by
    obtain ⟨n', hn', hsame⟩ := SameScenario.hasNode hs hn
    exact h.prod g d n' hn' i (by rw [← hsame.productions.length_eq]; exact hi) t (hs.horizon ▸ ht)
  cap := fun g d n hn i hi t ht => by
    obtain ⟨n', hn', hsame⟩ := SameScenario.hasNode hs hn
    exact h.cap g d n' hn' i (by rw [← hsame.storages.length_eq]; exact hi) t (hs.horizon ▸ ht)
  fin := fun g d n hn i hi t ht => by
    obtain ⟨n', hn', hsame⟩ := SameScenario.hasNode hs hn
    exact h.fin g d n' hn' i (by rw [← hsame.storages.length_eq]; exact hi) t (hs.horizon ▸ ht)
  fout := fun g d n hn i hi t ht => by
    obtain ⟨n', hn', hsame⟩ := SameScenario.hasNode hs hn
    exact h.fout g d n' hn' i (by rw [← hsame.storages.length_eq]; exact hi) t (hs.horizon ▸ ht)
  link := fun g d n hn i hi t ht => by
    obtain ⟨n', hn', hsame⟩ := SameScenario.hasNode hs hn
    exact h.link g d n' hn' i (by rw [← hsame.links.length_eq]; exact hi) t (hs.horizon ▸ ht)
  convSrc := fun p hp g d hk t ht => by
    obtain ⟨q, hq, e, hkeys⟩ := SameScenario.converter hs hp
    rw [e]
    exact h.convSrc q hq g d (hkeys _ hk) t (hs.horizon ▸ ht)
  convDest := fun p hp t ht => by
    obtain ⟨q, hq, e, _⟩ := SameScenario.converter hs hp
    rw [e]
    exact h.convDest q hq t (hs.horizon ▸ ht)

theorem Spec.SameFlows.trans {s : Study} {D D' D'' : Dispatch} (h : SameFlows s D D')
    (h' : SameFlows s D' D'') : SameFlows s D D'' where
  lol := fun g d n hn i hi t ht => (h.lol g d n hn i hi t ht).trans (h'.lol g d n hn i hi t ht)
  prod := fun g d n hn i hi t ht => (h.prod g d n hn i hi t ht).trans (h'.prod g d n hn i hi t ht)
  cap := fun g d n hn i hi t ht => (h.cap g d n hn i hi t ht).trans (h'.cap g d n hn i hi t ht)
  fin := fun g d n hn i hi t ht => (h.fin g d n hn i hi t ht).trans (h'.fin g d n hn i hi t ht)
  fout := fun g d n hn i hi t ht => (h.fout g d n hn i hi t ht).trans (h'.fout g d n hn i hi t ht)
  link := fun g d n hn i hi t ht => (h.link g d n hn i hi t ht).trans (h'.link g d n hn i hi t ht)
  convSrc := fun p hp g d hk t ht =>
    (h.convSrc p hp g d hk t ht).trans (h'.convSrc p hp g d hk t ht)
  convDest := fun p hp t ht => (h.convDest p hp t ht).trans (h'.convDest p hp t ht)

/-! ### The result mirrors the study -/

theorem forall₂_map_right {α β : Type} {R : α → β → Prop} {l : List α} {f : α → β}
    (h : ∀ a ∈ l, R a (f a)) : List.Forall₂ R l (l.map f) := by
  induction l with
  | nil => exact .nil
  | cons a l ih => exact .cons (h a (by simp)) (ih fun b hb => h b (by simp [hb]))

theorem forall₂_zipIdx_map {α β : Type} {R : α → β → Prop} {l : List α} {f : α × ℕ → β} (i : ℕ)
    (h : ∀ a i, R a (f (a, i))) : List.Forall₂ R l ((l.zipIdx i).map f) := by
  induction l generalizing i with
  | nil => exact .nil
  | cons a l ih => exact .cons (h a i) (ih (i + 1))

theorem full_ofCells (s : Study) (f : ℕ → ℕ → ℚ) : Full s (ofCells s.nbScn s.horizon f) :=
  ⟨rfl, length_cells ..⟩

theorem mirrors_result {s : Study} (hi : StudyInv s) (X : Vals) (b : Benchmark) :
    Mirrors s (resultAll s X b) where
  networks := by
    apply forall₂_map_right
    intro p _
    refine ⟨rfl, ?_⟩
    apply forall₂_map_right
    intro q _
    refine ⟨rfl, ?_⟩
    exact ⟨forall₂_zipIdx_map 0 fun a i => ⟨rfl, full_ofCells _ _⟩,
      forall₂_zipIdx_map 0 fun a i => ⟨rfl, full_ofCells _ _⟩,
      forall₂_zipIdx_map 0 fun a i => ⟨rfl, full_ofCells _ _, full_ofCells _ _, full_ofCells _ _⟩,
      forall₂_zipIdx_map 0 fun a i => ⟨rfl, full_ofCells _ _⟩⟩
  converters := by
    apply forall₂_map_right
    intro p hp
    refine ⟨rfl, (hi.convs p hp).name.symm, ?_, full_ofCells _ _⟩
    apply forall₂_map_right
    intro q _
    exact ⟨rfl, full_ofCells _ _⟩

/-! ### A valid study is feasible -/

/-- nothing is served, nothing moves -/
def idle (s : Study) (k : ℕ) : Dispatch where
  lol g d i t := match (inNode s g d).consumptions[i]? with
    | some c => val c.quantity k t
    | none => 0
  prod _ _ _ _ := 0
  cap g d i _ := match (inNode s g d).storages[i]? with
    | some c => c.initCapacity
    | none => 0
  fin _ _ _ _ := 0
  fout _ _ _ _ := 0
  link _ _ _ _ := 0
  convSrc _ _ _ := 0
  convDest _ _ := 0

theorem sumI_zero {α : Type} (l : List α) : (sumI l fun _ _ => 0) = 0 := by
  rw [sumI_eq]; exact sumL_eq_zero (fun _ _ => rfl)

theorem sumL_const0 {α : Type} (l : List α) : (sumL l fun _ => 0) = 0 := sumL_eq_zero (fun _ _ => rfl)

theorem mem_of_getElem?_some {α : Type} {l : List α} {i : ℕ} {a : α} (h : l[i]? = some a) : a ∈ l :=
  List.mem_iff_getElem?.mpr ⟨i, h⟩

theorem idle_feasible {s : Study} (hi : StudyInv s) {k : ℕ} (hl : LimitsOk s k) :
    Spec.Feasible s k (idle s k) where
  bounds := {
    consumptions := fun g d n hn i c hc t ht => by
      simp only [idle, inNode_eq hi hn, hc]
      exact ⟨hl.consumptions g d n hn c (mem_of_getElem?_some hc) t ht, le_refl _⟩
    productions := fun g d n hn i c hc t ht =>
      ⟨le_refl _, hl.productions g d n hn c (mem_of_getElem?_some hc) t ht⟩
    storages := fun g d n hn i c hc t ht => by
      obtain ⟨h1, h2, h3, h4⟩ := hl.storages g d n hn c (mem_of_getElem?_some hc) t ht
      simp only [idle, inNode_eq hi hn, hc]
      exact ⟨⟨h1, h2⟩, ⟨le_refl _, h3⟩, ⟨le_refl _, h4⟩⟩
    links := fun g d n hn i c hc t ht =>
      ⟨le_refl _, hl.links g d n hn c (mem_of_getElem?_some hc) t ht⟩
    convSrc := fun p hp g d r hr t ht =>
      ⟨le_refl _, fun _ => div_nonneg (hl.converters p hp t ht).1 ((hl.converters p hp t ht).2 _ hr)⟩
    convDest := fun p hp t ht => ⟨le_refl _, (hl.converters p hp t ht).1⟩ }
  balanced := fun g d n hn t ht => by
    unfold incoming outgoing imports fromConverters toConverters
    have e : (sumI n.consumptions fun c i => val c.quantity k t - (idle s k).lol g d i t) = 0 := by
      rw [sumI_congr (g := fun _ _ => 0), sumI_zero]
      intro c i hc
      simp [idle, inNode_eq hi hn, hc]
    rw [e]
    simp [idle, sumI_zero, sumL_const0]
  storages := fun g d n hn i c hc t ht => by
    unfold Evolves
    cases t <;> simp [levelBefore, idle, inNode_eq hi hn, hc]
  ratios := fun p hp g d r hr t ht => by simp [idle]

theorem idle_code {s : Study} (hi : StudyInv s) {k : ℕ} (hl : LimitsOk s k) :
    CodeFeasible s k (idle s k) where
  bounds := (idle_feasible hi hl).bounds
  balance := fun g d n hn t ht => by
    have : selfFlow (idle s k) g d n t = 0 := by
      unfold selfFlow
      simp [idle, sumI_zero]
    rw [this, add_zero]
    exact (idle_feasible hi hl).balanced g d n hn t ht
  storages := fun g d n hn c hc t ht =>
    (idle_feasible hi hl).storages g d n hn 0 c (by rw [← List.head?_eq_getElem?]; exact hc) t ht
  ratios := (idle_feasible hi hl).ratios

end Hadar
