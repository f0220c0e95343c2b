import Verif.Proofs.DtoHash

/-! # Objects that share nothing: when they are equal, and that they exist -/

namespace Hadar

open Spec PyObj

theorem arrayEq_true_one {strict : Bool} {a b : NdArray} (h : arrayEq strict a b = .ok true) : OneElement a := by
  unfold arrayEq at h
  split at h
  · split at h <;> simp at h
  · rename_i sh hb
    split at h
    · simp at h
    · split at h
      · rename_i h1
        have := (broadcast_prod_one hb h1).1
        rw [List.prod_reverse] at this
        unfold OneElement
        rw [a.wf, this]
      · simp at h

theorem Spec.IdsEntries.get {P : ℕ → Prop} {e : List (PyKey × PyObj)} {k : PyKey} {y : PyObj}
    (h : IdsEntries P e) (hg : Dict.get? e k = some y) : Ids P y := by
  induction e with
  | nil => cases hg
  | cons p e ih =>
    obtain ⟨k', x⟩ := p
    simp only [Dict.get?] at hg
    split at hg
    · cases hg; exact h.1
    · exact ih h.2 hg

mutual
/-- equal objects that share nothing have only arrays of one element -/
theorem eq_apart {strict : Bool} {P : ℕ → Prop} : ∀ x y : PyObj, Ids P x → Ids (fun i => ¬ P i) y →
    eq strict x y = .ok true → Arrays OneElement x
  | .num q, y, _, _, _ => trivial
  | .str q, y, _, _, _ => trivial
  | .arr i a, y, hx, hy, h => by
    cases y with
    | arr j b =>
      simp only [eq] at h
      split at h
      · rename_i e; subst e; exact absurd hx hy
      · exact arrayEq_true_one h
    | _ => simp [eq] at h
  | .list i l, y, hx, hy, h => by
    cases y with
    | list j m =>
      simp only [eq] at h
      split at h
      · rename_i e; subst e; exact absurd hx.1 hy.1
      · split at h
        · exact eqItems_apart l m ‹_› hx.2 hy.2 h
        · simp at h
    | _ => simp [eq] at h
  | .dict i l, y, hx, hy, h => by
    cases y with
    | dict j m =>
      simp only [eq] at h
      split at h
      · rename_i e; subst e; exact absurd hx.1 hy.1
      · split at h
        · exact eqEntries_apart l m hx.2 hy.2 h
        · simp at h
    | _ => simp [eq] at h
  | .inst i c l, y, hx, hy, h => by
    cases y with
    | inst j c' m =>
      simp only [eq] at h
      split at h
      · rename_i e; subst e; exact absurd hx.1 hy.1
      · split at h
        · split at h
          · exact eqEntries_apart l m hx.2 hy.2 h
          · simp at h
        · simp at h
    | _ => simp [eq] at h
theorem eqItems_apart {strict : Bool} {P : ℕ → Prop} : ∀ x y : List PyObj, x.length = y.length →
    IdsItems P x → IdsItems (fun i => ¬ P i) y → eqItems strict x y = .ok true → ArraysItems OneElement x
  | [], _, _, _, _, _ => trivial
  | x :: l, y, hl, hx, hy, h => by
    cases y with
    | nil => cases hl
    | cons y m =>
      simp only [eqItems] at h
      split at h
      · cases h
      · cases h
      · rename_i h1
        exact ⟨eq_apart x y hx.1 hy.1 h1, eqItems_apart l m (by simpa using hl) hx.2 hy.2 h⟩
theorem eqEntries_apart {strict : Bool} {P : ℕ → Prop} : ∀ x y : List (PyKey × PyObj),
    IdsEntries P x → IdsEntries (fun i => ¬ P i) y → eqEntries strict x y = .ok true →
    ArraysEntries OneElement x
  | [], _, _, _, _ => trivial
  | (k, x) :: d, e, hx, hy, h => by
    simp only [eqEntries] at h
    split at h
    · cases h
    · rename_i y hg
      split at h
      · cases h
      · cases h
      · rename_i h1
        exact ⟨eq_apart x y hx.1 (hy.get hg) h1, eqEntries_apart d e hx.2 hy h⟩
end

theorem equal_apart {strict : Bool} {x y : PyObj} (ha : NothingShared x y) (h : equal strict x y = .ok true) :
    Arrays OneElement x := by
  obtain ⟨P, hx, hy⟩ := ha
  unfold equal at h
  split at h
  · split at h
    · split at h
      · exact eqEntries_apart _ _ hx.2 hy.2 h
      · cases h
    · cases h
  · exact eq_apart x y hx hy h

/-! ### Arrays inside an object do not depend on identities -/

mutual
theorem arrays_erase {P : NdArray → Prop} : ∀ x : PyObj, Arrays P x.erase ↔ Arrays P x
  | .num q => Iff.rfl
  | .str q => Iff.rfl
  | .arr i q => Iff.rfl
  | .list i l => arraysItems_erase l
  | .dict i d => arraysEntries_erase d
  | .inst i c d => arraysEntries_erase d
theorem arraysItems_erase {P : NdArray → Prop} : ∀ x : List PyObj,
    ArraysItems P (eraseItems x) ↔ ArraysItems P x
  | [] => Iff.rfl
  | x :: l => and_congr (arrays_erase x) (arraysItems_erase l)
theorem arraysEntries_erase {P : NdArray → Prop} : ∀ x : List (PyKey × PyObj),
    ArraysEntries P (eraseEntries x) ↔ ArraysEntries P x
  | [] => Iff.rfl
  | (_, x) :: l => and_congr (arrays_erase x) (arraysEntries_erase l)
end

/-! ### Existence -/

mutual
/-- unique keys; names of attributes are strings -/
def Formed : PyObj → Prop
  | .num _ => True
  | .str _ => True
  | .arr _ _ => True
  | .list _ l => FormedItems l
  | .dict _ d => (d.map Prod.fst).Nodup ∧ FormedEntries d
  | .inst _ _ d => (d.map Prod.fst).Nodup ∧ FormedEntries d ∧ ∀ p ∈ d, ∃ s, p.1 = .str s
def FormedItems : List PyObj → Prop
  | [] => True
  | x :: l => Formed x ∧ FormedItems l
def FormedEntries : List (PyKey × PyObj) → Prop
  | [] => True
  | (_, x) :: l => Formed x ∧ FormedEntries l
end

mutual
theorem live_congr {mem mem' : ℕ → PyObj} : ∀ x : PyObj, Ids (fun i => mem i = mem' i) x → Live mem x → Live mem' x
  | .num q, _, _ => trivial
  | .str q, _, _ => trivial
  | .arr i q, h, hl => Eq.trans (Eq.symm h) hl
  | .list i l, h, hl => ⟨h.1.symm.trans hl.1, liveItems_congr l h.2 hl.2⟩
  | .dict i d, h, hl => ⟨h.1.symm.trans hl.1, hl.2.1, liveEntries_congr d h.2 hl.2.2⟩
  | .inst i c d, h, hl => ⟨h.1.symm.trans hl.1, hl.2.1, liveEntries_congr d h.2 hl.2.2.1, hl.2.2.2⟩
theorem liveItems_congr {mem mem' : ℕ → PyObj} : ∀ x : List PyObj, IdsItems (fun i => mem i = mem' i) x →
    LiveItems mem x → LiveItems mem' x
  | [], _, _ => trivial
  | x :: l, h, hl => ⟨live_congr x h.1 hl.1, liveItems_congr l h.2 hl.2⟩
theorem liveEntries_congr {mem mem' : ℕ → PyObj} : ∀ x : List (PyKey × PyObj),
    IdsEntries (fun i => mem i = mem' i) x → LiveEntries mem x → LiveEntries mem' x
  | [], _, _ => trivial
  | (_, x) :: l, h, hl => ⟨live_congr x h.1 hl.1, liveEntries_congr l h.2 hl.2⟩
end

mutual
theorem ids_imp {P Q : ℕ → Prop} (hi : ∀ i, P i → Q i) : ∀ x : PyObj, Ids P x → Ids Q x
  | .num q, _ => trivial
  | .str q, _ => trivial
  | .arr i q, h => hi i h
  | .list i l, h => ⟨hi i h.1, idsItems_imp hi l h.2⟩
  | .dict i d, h => ⟨hi i h.1, idsEntries_imp hi d h.2⟩
  | .inst i c d, h => ⟨hi i h.1, idsEntries_imp hi d h.2⟩
theorem idsItems_imp {P Q : ℕ → Prop} (hi : ∀ i, P i → Q i) : ∀ x : List PyObj, IdsItems P x → IdsItems Q x
  | [], _ => trivial
  | x :: l, h => ⟨ids_imp hi x h.1, idsItems_imp hi l h.2⟩
theorem idsEntries_imp {P Q : ℕ → Prop} (hi : ∀ i, P i → Q i) : ∀ x : List (PyKey × PyObj),
    IdsEntries P x → IdsEntries Q x
  | [], _ => trivial
  | (_, x) :: l, h => ⟨ids_imp hi x h.1, idsEntries_imp hi l h.2⟩
end

/-- one memory below `m`, another one above -/
def memAt (m : ℕ) (mem mem' : ℕ → PyObj) : ℕ → PyObj := fun i => if i < m then mem i else mem' i

/-- one more object -/
def memSet (m : ℕ) (x : PyObj) (mem : ℕ → PyObj) : ℕ → PyObj := fun i => if i = m then x else mem i

theorem memSet_lt {m : ℕ} {x : PyObj} {mem : ℕ → PyObj} {n i : ℕ} (h : n ≤ i ∧ i < m) :
    mem i = memSet m x mem i := by
  unfold memSet; rw [if_neg (by omega)]

theorem memAt_lt {m : ℕ} {mem mem' : ℕ → PyObj} {n i : ℕ} (h : n ≤ i ∧ i < m) :
    mem i = memAt m mem mem' i := by
  unfold memAt; rw [if_pos h.2]

theorem memAt_ge {m : ℕ} {mem mem' : ℕ → PyObj} {n i : ℕ} (h : m ≤ i ∧ i < n) :
    mem' i = memAt m mem mem' i := by
  unfold memAt; rw [if_neg (by omega)]

theorem eraseEntries_str {d e : List (PyKey × PyObj)} (h : eraseEntries d = eraseEntries e)
    (hs : ∀ p ∈ e, ∃ s, p.1 = PyKey.str s) : ∀ p ∈ d, ∃ s, p.1 = PyKey.str s := by
  intro p hp
  have := List.mem_map_of_mem (f := Prod.fst) hp
  rw [← eraseEntries_keys, h, eraseEntries_keys] at this
  obtain ⟨q, hq, e⟩ := List.mem_map.1 this
  rw [← e]
  exact hs q hq

theorem eraseEntries_nodup {d e : List (PyKey × PyObj)} (h : eraseEntries d = eraseEntries e)
    (hs : (e.map Prod.fst).Nodup) : (d.map Prod.fst).Nodup := by
  rw [← eraseEntries_keys, h, eraseEntries_keys]; exact hs

mutual
/-- any well-formed object can be put in memory from identity `n` on -/
theorem exists_live : ∀ (a : PyObj) (n : ℕ), Formed a → ∃ mem x m, n ≤ m ∧ Live mem x ∧ x.erase = a.erase ∧
    Ids (fun i => n ≤ i ∧ i < m) x
  | .num q, n, _ => ⟨fun _ => .num 0, .num q, n, le_rfl, trivial, rfl, trivial⟩
  | .str q, n, _ => ⟨fun _ => .num 0, .str q, n, le_rfl, trivial, rfl, trivial⟩
  | .arr i q, n, _ => ⟨fun _ => .arr 0 q, .arr n q, n + 1, by omega, rfl, rfl, by
      show n ≤ n ∧ n < n + 1
      omega⟩
  | .list i l, n, h => by
    obtain ⟨mem, x, m, hm, hl, he, hi⟩ := exists_liveItems l n h
    refine ⟨memSet m (.list 0 (eraseItems x)) mem, .list m x, m + 1, by omega, ⟨?_, ?_⟩, ?_, ?_, ?_⟩
    · simp [memSet]
    · exact liveItems_congr x (idsItems_imp (fun i h => memSet_lt h) x hi) hl
    · simp only [erase, he]
    · exact ⟨hm, by omega⟩
    · exact idsItems_imp (fun i h => ⟨h.1, by omega⟩) x hi
  | .dict i d, n, h => by
    obtain ⟨mem, x, m, hm, hl, he, hi⟩ := exists_liveEntries d n h.2
    refine ⟨memSet m (.dict 0 (eraseEntries x)) mem, .dict m x, m + 1, by omega, ⟨?_, ?_, ?_⟩, ?_, ?_, ?_⟩
    · simp [memSet]
    · exact eraseEntries_nodup he h.1
    · exact liveEntries_congr x (idsEntries_imp (fun i h => memSet_lt h) x hi) hl
    · simp only [erase, he]
    · exact ⟨hm, by omega⟩
    · exact idsEntries_imp (fun i h => ⟨h.1, by omega⟩) x hi
  | .inst i c d, n, h => by
    obtain ⟨mem, x, m, hm, hl, he, hi⟩ := exists_liveEntries d n h.2.1
    refine ⟨memSet m (.inst 0 c (eraseEntries x)) mem, .inst m c x, m + 1, by omega, ⟨?_, ?_, ?_, ?_⟩, ?_, ?_, ?_⟩
    · simp [memSet]
    · exact eraseEntries_nodup he h.1
    · exact liveEntries_congr x (idsEntries_imp (fun i h => memSet_lt h) x hi) hl
    · exact eraseEntries_str he h.2.2
    · simp only [erase, he]
    · exact ⟨hm, by omega⟩
    · exact idsEntries_imp (fun i h => ⟨h.1, by omega⟩) x hi
theorem exists_liveItems : ∀ (a : List PyObj) (n : ℕ), FormedItems a → ∃ mem x m, n ≤ m ∧ LiveItems mem x ∧
    eraseItems x = eraseItems a ∧ IdsItems (fun i => n ≤ i ∧ i < m) x
  | [], n, _ => ⟨fun _ => .num 0, [], n, le_rfl, trivial, rfl, trivial⟩
  | a :: l, n, h => by
    obtain ⟨mem, x, m, hm, hl, he, hi⟩ := exists_live a n h.1
    obtain ⟨mem', x', m', hm', hl', he', hi'⟩ := exists_liveItems l m h.2
    refine ⟨memAt m mem mem', x :: x', m', by omega, ⟨?_, ?_⟩, ?_, ?_, ?_⟩
    · exact live_congr x (ids_imp (fun i h => memAt_lt h) x hi) hl
    · exact liveItems_congr x' (idsItems_imp (fun i h => memAt_ge h) x' hi') hl'
    · simp only [eraseItems, he, he']
    · exact ids_imp (fun i h => ⟨h.1, by omega⟩) x hi
    · exact idsItems_imp (fun i h => ⟨by omega, h.2⟩) x' hi'
theorem exists_liveEntries : ∀ (a : List (PyKey × PyObj)) (n : ℕ), FormedEntries a → ∃ mem x m, n ≤ m ∧
    LiveEntries mem x ∧ eraseEntries x = eraseEntries a ∧ IdsEntries (fun i => n ≤ i ∧ i < m) x
  | [], n, _ => ⟨fun _ => .num 0, [], n, le_rfl, trivial, rfl, trivial⟩
  | (k, a) :: l, n, h => by
    obtain ⟨mem, x, m, hm, hl, he, hi⟩ := exists_live a n h.1
    obtain ⟨mem', x', m', hm', hl', he', hi'⟩ := exists_liveEntries l m h.2
    refine ⟨memAt m mem mem', (k, x) :: x', m', by omega, ⟨?_, ?_⟩, ?_, ?_, ?_⟩
    · exact live_congr x (ids_imp (fun i h => memAt_lt h) x hi) hl
    · exact liveEntries_congr x' (idsEntries_imp (fun i h => memAt_ge h) x' hi') hl'
    · simp only [eraseEntries, he, he']
    · exact ids_imp (fun i h => ⟨h.1, by omega⟩) x hi
    · exact idsEntries_imp (fun i h => ⟨by omega, h.2⟩) x' hi'
end

/-- two objects of one memory that share nothing -/
theorem exists_apart (a b : PyObj) (ha : Formed a) (hb : Formed b) : ∃ mem x y, Live mem x ∧ Live mem y ∧
    x.erase = a.erase ∧ y.erase = b.erase ∧ NothingShared x y := by
  obtain ⟨mem, x, m, hm, hl, he, hi⟩ := exists_live a 0 ha
  obtain ⟨mem', x', m', hm', hl', he', hi'⟩ := exists_live b m hb
  refine ⟨memAt m mem mem', x, x', ?_, ?_, he, he', fun i => i < m, ?_, ?_⟩
  · exact live_congr x (ids_imp (fun i h => memAt_lt h) x hi) hl
  · exact live_congr x' (ids_imp (fun i h => memAt_ge h) x' hi') hl'
  · exact ids_imp (fun i h => h.2) x hi
  · exact ids_imp (fun i h => by omega) x' hi'

/-! ### Studies and results as objects -/

theorem arraysItems_map {A : Type} {P : NdArray → Prop} {f : A → PyObj} {l : List A} :
    ArraysItems P (l.map f) ↔ ∀ a ∈ l, Arrays P (f a) := by
  induction l with
  | nil => simp [ArraysItems]
  | cons a l ih => simp [ArraysItems, ih]

theorem arraysEntries_map {A : Type} {P : NdArray → Prop} {κ : A → PyKey} {f : A → PyObj} {l : List A} :
    ArraysEntries P (l.map fun a => (κ a, f a)) ↔ ∀ a ∈ l, Arrays P (f a) := by
  induction l with
  | nil => simp [ArraysEntries]
  | cons a l ih => simp [ArraysEntries, ih]

theorem NumVal.obj_arrays {P : NdArray → Prop} {v : NumVal} : Arrays P v.obj ↔ ArrayOf P v := by
  obtain ⟨k, h, n⟩ := v
  cases k <;> simp [NumVal.obj, Arrays, ArraysEntries, attr, ArrayOf]

theorem ConvField.obj_arrays {P : NdArray → Prop} {f : ConvField} :
    Arrays P f.obj ↔ ∀ v, f = .val v → ArrayOf P v := by
  cases f with
  | int0 => simp [ConvField.obj, Arrays]
  | val v => simp [ConvField.obj, NumVal.obj_arrays]

theorem Study.obj_arrays {P : NdArray → Prop} {s : Study} : Arrays P s.obj ↔ StudyAll (ArrayOf P) s := by
  simp only [Study.obj, Arrays, ArraysEntries, attr, arraysEntries_map, InputNetwork.obj, InputNode.obj,
    arraysItems_map, Consumption.obj, Production.obj, Storage.obj, Link.obj, Converter.obj, Factory.obj,
    NumVal.obj_arrays, ConvField.obj_arrays, and_true, true_and]
  constructor
  · rintro ⟨h1, h2⟩
    refine ⟨?_, fun p hp => ?_⟩
    · rintro g d n ⟨net, hg, hd⟩
      obtain ⟨k1, k2, k3, k4⟩ := h1 _ hg _ hd
      exact ⟨fun c hc => (k1 c hc).symm, fun c hc => (k2 c hc).symm, fun c hc => k3 c hc, fun c hc => k4 c hc⟩
    · obtain ⟨k1, k2, k3⟩ := h2 p hp
      exact ⟨k1, k2, k3⟩
  · rintro ⟨h1, h2⟩
    refine ⟨fun p hp q hq => ?_, fun p hp => ?_⟩
    · obtain ⟨k1, k2, k3, k4⟩ := h1 p.1 q.1 q.2 ⟨p.2, hp, hq⟩
      exact ⟨fun c hc => (k1 c hc).symm, fun c hc => (k2 c hc).symm, fun c hc => k3 c hc, fun c hc => k4 c hc⟩
    · obtain ⟨k1, k2, k3⟩ := h2 p hp
      exact ⟨k1, k2, k3⟩

theorem Result.obj_arrays {P : NdArray → Prop} {r : Result} : Arrays P r.obj ↔ ResultArrays P r := by
  simp only [Result.obj, Arrays, ArraysEntries, attr, arraysEntries_map, OutputNetwork.obj, OutputNode.obj,
    arraysItems_map, OutputConsumption.obj, OutputProduction.obj, OutputStorage.obj, OutputLink.obj,
    OutputConverter.obj, Benchmark.obj, and_true, true_and, implies_true]
  exact ⟨fun h => ⟨h.1, h.2⟩, fun h => ⟨h.1, h.2⟩⟩

theorem formedItems_map {A : Type} {f : A → PyObj} {l : List A} (h : ∀ a ∈ l, Formed (f a)) :
    FormedItems (l.map f) := by
  induction l with
  | nil => trivial
  | cons a l ih => exact ⟨h a List.mem_cons_self, ih fun a ha => h a (List.mem_cons_of_mem _ ha)⟩

theorem formedEntries_map {K V : Type} {κ : K → PyKey} (hκ : Function.Injective κ) {f : V → PyObj} {d : Dict K V}
    (hd : (d.map Prod.fst).Nodup) (h : ∀ p ∈ d, Formed (f p.2)) :
    ((d.map fun p => (κ p.1, f p.2)).map Prod.fst).Nodup ∧ FormedEntries (d.map fun p => (κ p.1, f p.2)) := by
  constructor
  · rw [List.map_map]
    have := hd.map hκ
    rwa [List.map_map] at this
  · induction d with
    | nil => trivial
    | cons p d ih =>
      exact ⟨h p List.mem_cons_self, ih (List.nodup_cons.1 hd).2 fun a ha => h a (List.mem_cons_of_mem _ ha)⟩

theorem NumVal.obj_formed (v : NumVal) : Formed v.obj := by
  obtain ⟨k, h, n⟩ := v
  cases k <;> simp [NumVal.obj, Formed, FormedEntries, attr]

theorem ConvField.obj_formed (v : ConvField) : Formed v.obj := by
  cases v with
  | int0 => trivial
  | val v => exact v.obj_formed

theorem InputNode.obj_formed (n : InputNode) : Formed n.obj := by
  simp only [InputNode.obj, Formed, FormedEntries, attr]
  refine ⟨by simp, ⟨?_, ?_, ?_, ?_, trivial⟩, by simp⟩ <;>
    refine formedItems_map fun a _ => ?_ <;>
    simp [Consumption.obj, Production.obj, Storage.obj, Link.obj, Formed, FormedEntries, attr, NumVal.obj_formed]

theorem Study.obj_formed {s : Study} (hs : UniqueNames s) : Formed s.obj := by
  simp only [Study.obj, Formed, FormedEntries, attr]
  refine ⟨by simp, ⟨trivial, ?_, ?_, trivial, trivial, ?_, trivial⟩, by simp⟩
  · refine formedEntries_map str_injective hs.networks fun p hp => ?_
    simp only [InputNetwork.obj, Formed, FormedEntries, attr]
    refine ⟨by simp, ⟨?_, trivial⟩, by simp⟩
    exact formedEntries_map str_injective (hs.nodes p hp) fun q _ => q.2.obj_formed
  · refine formedEntries_map str_injective hs.converters fun p hp => ?_
    simp only [Converter.obj, Formed, FormedEntries, attr]
    refine ⟨by simp, ⟨trivial, ?_, trivial, trivial, ConvField.obj_formed _, ConvField.obj_formed _, trivial⟩, by simp⟩
    exact formedEntries_map tup_injective (hs.sources p hp) fun q _ => q.2.obj_formed
  · simp [Factory.obj, Formed, FormedEntries, attr]

theorem Result.obj_formed {r : Result} (hr : ResultNames r) : Formed r.obj := by
  simp only [Result.obj, Formed, FormedEntries, attr]
  refine ⟨by simp, ⟨?_, ?_, ?_, trivial⟩, by simp⟩
  · refine formedEntries_map str_injective hr.networks fun p hp => ?_
    simp only [OutputNetwork.obj, Formed, FormedEntries, attr]
    refine ⟨by simp, ⟨?_, trivial⟩, by simp⟩
    refine formedEntries_map str_injective (hr.nodes p hp) fun q _ => ?_
    simp only [OutputNode.obj, Formed, FormedEntries, attr]
    refine ⟨by simp, ⟨?_, ?_, ?_, ?_, trivial⟩, by simp⟩ <;>
      refine formedItems_map fun a _ => ?_ <;>
      simp [OutputConsumption.obj, OutputProduction.obj, OutputStorage.obj, OutputLink.obj, Formed, FormedEntries,
        attr]
  · refine formedEntries_map str_injective hr.converters fun p hp => ?_
    simp only [OutputConverter.obj, Formed, FormedEntries, attr]
    refine ⟨by simp, ⟨trivial, ?_, trivial, trivial⟩, by simp⟩
    exact formedEntries_map (f := fun a => PyObj.arr 0 a) tup_injective (hr.sources p hp) fun q _ => trivial
  · simp only [Benchmark.obj, Formed, FormedEntries, attr]
    refine ⟨by simp, ⟨formedItems_map fun a _ => trivial, formedItems_map fun a _ => trivial, trivial, trivial, trivial⟩,
      by simp⟩

theorem NumVal.obj_erase (v : NumVal) : v.obj.erase = v.obj := by
  obtain ⟨k, h, n⟩ := v
  cases k <;> simp [NumVal.obj, erase, eraseEntries, attr]

theorem ConvField.obj_erase (v : ConvField) : v.obj.erase = v.obj := by
  cases v with
  | int0 => rfl
  | val v => exact v.obj_erase

theorem eraseItems_map {A : Type} {f : A → PyObj} (h : ∀ a, (f a).erase = f a) (l : List A) :
    eraseItems (l.map f) = l.map f := by
  induction l with
  | nil => rfl
  | cons a l ih => simp [eraseItems, h, ih]

theorem eraseEntries_map {A : Type} {κ : A → PyKey} {f : A → PyObj} (h : ∀ a, (f a).erase = f a) (l : List A) :
    eraseEntries (l.map fun a => (κ a, f a)) = l.map fun a => (κ a, f a) := by
  induction l with
  | nil => rfl
  | cons a l ih => simp [eraseEntries, h, ih]

theorem InputNode.obj_erase (n : InputNode) : n.obj.erase = n.obj := by
  simp only [InputNode.obj, erase, eraseEntries, attr]
  rw [eraseItems_map, eraseItems_map, eraseItems_map, eraseItems_map] <;> intro a <;>
    simp [Consumption.obj, Production.obj, Storage.obj, Link.obj, erase, eraseEntries, attr, NumVal.obj_erase]

theorem Study.obj_erase (s : Study) : s.obj.erase = s.obj := by
  simp only [Study.obj, erase, eraseEntries, attr]
  rw [eraseEntries_map, eraseEntries_map]
  · rfl
  · intro p
    simp only [Converter.obj, erase, eraseEntries, attr, ConvField.obj_erase]
    rw [eraseEntries_map]
    exact fun q => q.2.obj_erase
  · intro p
    simp only [InputNetwork.obj, erase, eraseEntries, attr]
    rw [eraseEntries_map]
    exact fun q => q.2.obj_erase

theorem Result.obj_erase (r : Result) : r.obj.erase = r.obj := by
  simp only [Result.obj, erase, eraseEntries, attr]
  rw [eraseEntries_map, eraseEntries_map]
  · simp only [Benchmark.obj, erase, eraseEntries, attr]
    rw [eraseItems_map, eraseItems_map] <;> intro _ <;> rfl
  · intro p
    simp only [OutputConverter.obj, erase, eraseEntries, attr]
    rw [eraseEntries_map]
    exact fun q => rfl
  · intro p
    simp only [OutputNetwork.obj, erase, eraseEntries, attr]
    rw [eraseEntries_map]
    intro q
    simp only [OutputNode.obj, erase, eraseEntries, attr]
    rw [eraseItems_map, eraseItems_map, eraseItems_map, eraseItems_map] <;> intro a <;>
      simp [OutputConsumption.obj, OutputProduction.obj, OutputStorage.obj, OutputLink.obj, erase, eraseEntries, attr]

/-! ### Studies made through the API -/

theorem tidy_run (h n : ℕ) (cs : List Call) (hraw : ∀ c ∈ cs, RawCall c) :
    UniqueNames ((World.start h n).run cs).study ∧
      StudyAll (NumVal.Sized h n) ((World.start h n).run cs).study := by
  refine ⟨(World.reachable_inv h n cs).study.names, ?_⟩
  refine World.run_all (World.worldInv_start h n) ?_ cs hraw ?_
  · refine ⟨?_, ?_⟩
    · rintro g d x ⟨net, hm, _⟩; simp [World.start, Study.init] at hm
    · intro p hp; simp [World.start, Study.init] at hp
  · intro r v hr hv
    exact Factory.create_sized hr hv

theorem Spec.StudyAll.imp {V W : NumVal → Prop} {s : Study} (h : StudyAll V s) (hi : ∀ v, V v → W v) :
    StudyAll W s := by
  refine ⟨fun g d n hn => ?_, fun p hp => ?_⟩
  · obtain ⟨k1, k2, k3, k4⟩ := h.1 g d n hn
    exact ⟨fun c hc => ⟨hi _ (k1 c hc).1, hi _ (k1 c hc).2⟩, fun c hc => ⟨hi _ (k2 c hc).1, hi _ (k2 c hc).2⟩,
      fun c hc => ⟨hi _ (k3 c hc).1, hi _ (k3 c hc).2.1, hi _ (k3 c hc).2.2.1, hi _ (k3 c hc).2.2.2.1,
        hi _ (k3 c hc).2.2.2.2⟩, fun c hc => ⟨hi _ (k4 c hc).1, hi _ (k4 c hc).2⟩⟩
  · obtain ⟨k1, k2, k3⟩ := h.2 p hp
    exact ⟨fun q hq => hi _ (k1 q hq), fun v hv => hi _ (k2 v hv), fun v hv => hi _ (k3 v hv)⟩

theorem tidy_run' (h n : ℕ) (cs : List Call) (hraw : ∀ c ∈ cs, RawCall c) :
    Tidy ((World.start h n).run cs).study :=
  ⟨(tidy_run h n cs hraw).1, (tidy_run h n cs hraw).2.imp fun _ hv => ⟨h, n, hv⟩⟩

theorem NumVal.Sized.nonempty {h n : ℕ} (hh : 0 < h) (hn : 0 < n) {v : NumVal} (hv : v.Sized h n) :
    ArrayOf (fun a => a.data ≠ []) v := by
  intro a ha e
  have hw := a.wf
  obtain ⟨_, _, hk⟩ := hv
  rcases ha with ha | ha | ha <;> rw [ha] at hk <;> simp [e, hk] at hw <;> omega

end Hadar
