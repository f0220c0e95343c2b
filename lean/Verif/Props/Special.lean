import Verif.Spec.Special

/-!
# C128: NaN and infinite numbers in the data
-/

namespace Hadar.Props

open Hadar Spec

variable {f : Factory} {raw flowIn flowOut capacity eff : FlRaw} {init x : Fl} {v : FlVal} {i j : ℕ}

theorem below0_iff (x : Fl) : x.lt (.fin 0) = true ↔ Below0 x := by
  cases x <;> simp [Fl.lt, Below0]

theorem above1_iff (x : Fl) : x.gt (.fin 1) = true ↔ Above1 x := by
  cases x <;> simp [Fl.gt, Fl.lt, Above1]

theorem createFl_fits (h : FitsNum f.horizon f.nbScn raw) : ∃ v, f.createFl raw = .ok v := by
  cases raw with
  | num x => exact ⟨_, rfl⟩
  | array shape d =>
    obtain ⟨h, _⟩ := h
    unfold Factory.createFl
    dsimp only
    split
    · exact ⟨_, rfl⟩
    · split
      · exact ⟨_, rfl⟩
      · rw [if_pos (by tauto)]
        exact ⟨_, rfl⟩

theorem createFl_lt (h : f.createFl raw = .ok v) (x : Fl) : v.lt x = true ↔ ∀ y, GivesNum raw y → y.lt x = true := by
  cases raw with
  | num y =>
    cases h
    simp [FlVal.lt, GivesNum]
  | array shape d =>
    unfold Factory.createFl at h
    dsimp only at h
    split at h
    · cases h; simp [FlVal.lt, GivesNum]
    · split at h
      · cases h; simp [FlVal.lt, GivesNum]
      · split at h
        · cases h; simp [FlVal.lt, GivesNum]
        · split at h <;> cases h

theorem createFl_gt (h : f.createFl raw = .ok v) (x : Fl) : v.gt x = true ↔ ∀ y, GivesNum raw y → y.gt x = true := by
  cases raw with
  | num y =>
    cases h
    simp [FlVal.gt, GivesNum]
  | array shape d =>
    unfold Factory.createFl at h
    dsimp only at h
    split at h
    · cases h; simp [FlVal.gt, GivesNum]
    · split at h
      · cases h; simp [FlVal.gt, GivesNum]
      · split at h
        · cases h; simp [FlVal.gt, GivesNum]
        · split at h <;> cases h

theorem createFl_says (h : f.createFl raw = .ok v) (hi : i < f.nbScn) (hj : j < f.horizon)
    (hx : SaysNum f.horizon f.nbScn raw i j x) : v.getitem i j = .ok x := by
  cases raw with
  | num y =>
    cases h
    obtain rfl : x = y := hx
    simp only [FlVal.getitem, ge_iff_le]
    rw [if_neg (by omega), if_neg (by omega)]
  | array shape d =>
    unfold Factory.createFl at h
    dsimp only at h
    rcases hx with ⟨h1, h2⟩ | ⟨h0, h1, h2⟩ | ⟨h0, h0', h1, h2⟩
    · rw [if_pos h1] at h
      cases h
      simp only [FlVal.getitem, ge_iff_le]
      rw [if_neg (by omega), h2]
      rfl
    · rw [if_neg h0, if_pos h1] at h
      cases h
      simp only [FlVal.getitem, ge_iff_le]
      rw [if_neg (by omega), h2]
      rfl
    · rw [if_neg h0, if_neg h0', if_pos h1] at h
      cases h
      simp only [FlVal.getitem, ge_iff_le]
      rw [if_neg (by omega), if_neg (by omega), h2]
      rfl

/-- C128: a quantity of one of the shapes is refused exactly when all of its numbers are below 0 -/
theorem C128_quantity (h : FitsNum f.horizon f.nbScn raw) :
    f.quantityFl raw = .error .valueError ↔ ∀ x, GivesNum raw x → Below0 x := by
  obtain ⟨v, hv⟩ := createFl_fits h
  have hl := createFl_lt hv (.fin 0)
  simp only [below0_iff] at hl
  unfold Factory.quantityFl
  rw [hv]
  simp only [bind, Except.bind, pure, Except.pure]
  rw [← hl]
  split
  · next h => simp [h]
  · next h => simp [h]

/-- C128: what is accepted is what was given: at each scenario and time the study gives the number the data says, NaN and infinities
included -/
theorem C128_kept (h : f.quantityFl raw = .ok v) (hi : i < f.nbScn) (hj : j < f.horizon) (hx : SaysNum f.horizon f.nbScn raw i j x) :
    v.getitem i j = .ok x := by
  unfold Factory.quantityFl at h
  rcases hc : f.createFl raw with e | w
  · rw [hc] at h; cases h
  · rw [hc] at h
    simp only [bind, Except.bind, pure, Except.pure] at h
    split at h
    · cases h
    · cases h
      exact createFl_says hc hi hj hx

/-- C128: data with a NaN in it is never refused for its sign, be all the other numbers negative -/
theorem C128_nan (h : FitsNum f.horizon f.nbScn raw) (hx : GivesNum raw .nan) : ∃ v, f.quantityFl raw = .ok v := by
  obtain ⟨v, hv⟩ := createFl_fits h
  refine ⟨v, ?_⟩
  have : v.lt (.fin 0) = false := by
    rw [Bool.eq_false_iff, ne_eq, createFl_lt hv]
    intro h
    exact absurd (h _ hx) (by simp [Fl.lt])
  unfold Factory.quantityFl
  rw [hv]
  simp [bind, Except.bind, this, pure, Except.pure]

/-- C128: a value with a NaN in it is neither < nor > any number, and is both <= and >= any number -/
theorem C128_compare (h : f.createFl raw = .ok v) (hx : GivesNum raw .nan) (y : Fl) :
    v.lt y = false ∧ v.gt y = false ∧ v.le y = true ∧ v.ge y = true := by
  have h1 : v.lt y = false := by
    rw [Bool.eq_false_iff, ne_eq, createFl_lt h]
    intro h
    exact absurd (h _ hx) (by simp [Fl.lt])
  have h2 : v.gt y = false := by
    rw [Bool.eq_false_iff, ne_eq, createFl_gt h]
    intro h
    have := h _ hx
    cases y <;> simp [Fl.gt, Fl.lt] at this
  simp [h1, h2, FlVal.le, FlVal.ge]

/-- C128: the numbers of a storage of the right shapes are accepted exactly when in each of the flows and in the capacity some number is not
below 0, the first level is not below 0, and in the efficiency some number is not below 0 and some is not above 1 -/
theorem C128_storage (h1 : FitsNum f.horizon f.nbScn flowIn) (h2 : FitsNum f.horizon f.nbScn flowOut) (h3 : FitsNum f.horizon f.nbScn capacity)
    (h4 : FitsNum f.horizon f.nbScn eff) :
    (∃ r, f.storageFl flowIn flowOut capacity eff init = .ok r) ↔
      (∃ x, GivesNum flowIn x ∧ ¬ Below0 x) ∧ (∃ x, GivesNum flowOut x ∧ ¬ Below0 x) ∧ (∃ x, GivesNum capacity x ∧ ¬ Below0 x) ∧
        ¬ Below0 init ∧ (∃ x, GivesNum eff x ∧ ¬ Below0 x) ∧ ∃ x, GivesNum eff x ∧ ¬ Above1 x := by
  obtain ⟨a, ha⟩ := createFl_fits h1
  obtain ⟨b, hb⟩ := createFl_fits h2
  obtain ⟨c, hc⟩ := createFl_fits h3
  obtain ⟨e, he⟩ := createFl_fits h4
  have low : ∀ {raw : FlRaw} {v : FlVal}, f.createFl raw = .ok v → ((∃ x, GivesNum raw x ∧ ¬ Below0 x) ↔ v.lt (.fin 0) = false) := by
    intro raw v hv
    rw [Bool.eq_false_iff, ne_eq, createFl_lt hv]
    simp only [below0_iff]
    push Not
    rfl
  have high : (∃ x, GivesNum eff x ∧ ¬ Above1 x) ↔ e.gt (.fin 1) = false := by
    rw [Bool.eq_false_iff, ne_eq, createFl_gt he]
    simp only [above1_iff]
    push Not
    rfl
  have hinit : ¬ Below0 init ↔ init.lt (.fin 0) = false := by rw [Bool.eq_false_iff, ne_eq, below0_iff]
  rw [low ha, low hb, low hc, low he, high, hinit]
  unfold Factory.storageFl
  rw [ha, hb, hc, he]
  simp only [bind, Except.bind, pure, Except.pure]
  cases a.lt (.fin 0) <;> cases b.lt (.fin 0) <;> cases c.lt (.fin 0) <;> cases init.lt (.fin 0) <;> cases e.lt (.fin 0) <;>
    cases e.gt (.fin 1) <;> simp

/-- C128: on finite data all of this is what the other modules say -/
theorem C128_finite (v : NumVal) (q : ℚ) :
    (ofFinite v).lt (.fin q) = v.lt q ∧ (ofFinite v).gt (.fin q) = v.gt q ∧ (ofFinite v).le (.fin q) = v.le q ∧
      (ofFinite v).ge (.fin q) = v.ge q := by
  have h1 : (ofFinite v).lt (.fin q) = v.lt q := by
    rcases v with ⟨k, h, n⟩
    cases k <;> simp [ofFinite, FlVal.lt, NumVal.lt, Fl.lt, List.all_map, Function.comp_def]
  have h2 : (ofFinite v).gt (.fin q) = v.gt q := by
    rcases v with ⟨k, h, n⟩
    cases k <;> simp [ofFinite, FlVal.gt, NumVal.gt, Fl.gt, Fl.lt, List.all_map, Function.comp_def]
  exact ⟨h1, h2, by simp [FlVal.le, NumVal.le, h2], by simp [FlVal.ge, NumVal.ge, h1]⟩

theorem C128_finite_create (f : Factory) (a : NdArray) (q : ℚ) :
    f.createFl (.array a.shape (a.data.map .fin)) = (f.create (.array a)).map ofFinite ∧
      f.createFl (.num (.fin q)) = (f.create (.num q)).map ofFinite := by
  refine ⟨?_, rfl⟩
  unfold Factory.createFl Factory.create Factory.ofArray
  dsimp only
  split
  · rfl
  · split
    · rfl
    · split
      · rfl
      · split <;> rfl

/-- C128: data that is not a number is not refused: a load of NaN at a step and -5 at the other -/
theorem C128_refuted : ∃ (f : Factory) (raw : FlRaw) (v : FlVal), FitsNum f.horizon f.nbScn raw ∧ GivesNum raw .nan ∧
    f.quantityFl raw = .ok v ∧ v.getitem 0 0 = .ok .nan ∧ v.getitem 0 1 = .ok (.fin (-5)) :=
  ⟨⟨2, 1⟩, .array [2] [.nan, .fin (-5)], _, ⟨.inl rfl, rfl⟩, by simp [GivesNum], rfl, rfl, rfl⟩

/-! ### Concrete cases -/

/-- a series that is minus infinity everywhere is refused, a capacity without limit is not -/
example : (⟨2, 1⟩ : Factory).quantityFl (.array [2] [.minf, .fin (-1)]) = .error .valueError :=
  (C128_quantity (f := ⟨2, 1⟩) (raw := .array [2] [.minf, .fin (-1)]) ⟨.inl rfl, rfl⟩).mpr (by simp [GivesNum, Below0])

example : ¬ (⟨2, 1⟩ : Factory).quantityFl (.num .inf) = .error .valueError := by
  rw [C128_quantity (f := ⟨2, 1⟩) (raw := .num .inf) trivial]
  simp [GivesNum, Below0]

example : ∃ v, (⟨2, 3⟩ : Factory).quantityFl (.array [3, 1] [.fin (-1), .nan, .fin (-2)]) = .ok v :=
  C128_nan ⟨.inr (.inl rfl), rfl⟩ (by simp [GivesNum])

example {v : FlVal} (h : (⟨2, 3⟩ : Factory).quantityFl (.array [3, 1] [.fin 1, .nan, .inf]) = .ok v) :
    v.getitem 1 0 = .ok .nan ∧ v.getitem 2 1 = .ok .inf :=
  ⟨C128_kept h (by decide) (by decide) (.inr (.inl ⟨by decide, rfl, rfl⟩)), C128_kept h (by decide) (by decide) (.inr (.inl ⟨by decide, rfl, rfl⟩))⟩

example {v : FlVal} (h : (⟨2, 1⟩ : Factory).createFl (.array [2] [.fin 3, .nan]) = .ok v) : v.le (.fin 0) = true ∧ v.ge (.fin 9) = true :=
  ⟨(C128_compare h (by simp [GivesNum]) (.fin 0)).2.2.1, (C128_compare h (by simp [GivesNum]) (.fin 9)).2.2.2⟩

/-- a storage with no number at all -/
example : ∃ r, (⟨2, 1⟩ : Factory).storageFl (.num .nan) (.num .nan) (.num .nan) (.num .nan) .nan = .ok r :=
  (C128_storage (f := ⟨2, 1⟩) (flowIn := .num .nan) (flowOut := .num .nan) (capacity := .num .nan) (eff := .num .nan) trivial trivial
    trivial trivial).mpr (by simp [GivesNum, Below0, Above1])

/-- an efficiency without limit is refused -/
example : ¬ ∃ r, (⟨2, 1⟩ : Factory).storageFl (.num (.fin 1)) (.num (.fin 1)) (.num .inf) (.num .inf) (.fin 0) = .ok r := by
  rw [C128_storage (f := ⟨2, 1⟩) (flowIn := .num (.fin 1)) (flowOut := .num (.fin 1)) (capacity := .num .inf) (eff := .num .inf) trivial trivial
    trivial trivial]
  simp [GivesNum, Below0, Above1]

end Hadar.Props
