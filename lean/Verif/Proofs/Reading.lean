import Verif.Spec.Reading
import Verif.Proofs.JsonTwice
import Verif.Proofs.LPAccept

/-! # Lemmas on the grammar of files -/

set_option linter.unusedSimpArgs false

namespace Hadar

open Spec

/-! ### Arrays -/

theorem Json.ndAll?_iff {l : List Json} {rows : List (List ℕ × List ℚ)} :
    Json.ndAll? l = some rows ↔ List.Forall₂ (fun x r => Json.nd? x = some r) l rows := by
  induction l generalizing rows with
  | nil => simp [Json.ndAll?, eq_comm]
  | cons x xs ih =>
    rw [Json.ndAll?]
    constructor
    · intro h
      cases h1 : Json.nd? x with
      | none => simp [h1] at h
      | some r =>
        cases h2 : Json.ndAll? xs with
        | none => simp [h1, h2] at h
        | some rs =>
          simp only [h1, h2, Option.some.injEq] at h
          subst h
          exact .cons h1 (ih.mp h2)
    · intro h
      cases h with
      | cons a b => rw [a, ih.mpr b]

theorem nested_iff (sh : List ℕ) (d : List ℚ) (j : Json) : Nested sh d j ↔ Json.nd? j = some (sh, d) := by
  induction sh generalizing d j with
  | nil =>
    constructor
    · rintro ⟨q, rfl, rfl⟩
      simp [Json.nd?]
    · intro h
      obtain ⟨q, h⟩ := Json.nd?_zero h
      exact ⟨q, h.2, h.1⟩
  | cons n sh ih =>
    constructor
    · rintro ⟨l, rows, rfl, hl, h0, rfl, hr⟩
      have h1 : Json.ndAll? l = some (rows.map fun r => (sh, r)) := by
        rw [Json.ndAll?_iff, List.forall₂_map_right_iff]
        exact hr.flip.imp fun x r h => (ih _ _).mp h
      rw [Json.nd?, h1]
      cases rows with
      | nil =>
        cases hr
        subst hl
        simp [Json.stackRows, h0]
      | cons r rows =>
        have := hr.length_eq
        simp only [List.length_cons] at this
        simp [Json.stackRows, List.map_map, Function.comp_def, ← hl, ← this]
    · intro h
      cases j with
      | arr l =>
        rw [Json.nd?] at h
        cases h1 : Json.ndAll? l with
        | none => simp [h1] at h
        | some rows =>
          simp only [h1] at h
          rw [Json.ndAll?_iff] at h1
          cases rows with
          | nil =>
            cases h1
            simp only [Json.stackRows, Option.some.injEq, Prod.mk.injEq, List.cons.injEq] at h
            obtain ⟨⟨rfl, rfl⟩, rfl⟩ := h
            exact ⟨[], [], rfl, rfl, fun _ => rfl, rfl, .nil⟩
          | cons r rows =>
            simp only [Json.stackRows] at h
            split at h
            · rename_i hall
              simp only [Option.some.injEq, Prod.mk.injEq, List.cons.injEq] at h
              obtain ⟨⟨rfl, rfl⟩, rfl⟩ := h
              have hall' : ∀ r' ∈ r :: rows, r'.1 = r.1 := by
                intro r' hr'
                rcases List.mem_cons.mp hr' with rfl | hr'
                · rfl
                · simpa using List.all_eq_true.mp hall r' hr'
              refine ⟨l, (r :: rows).map Prod.snd, rfl, by simpa using h1.length_eq, by simp, rfl, ?_⟩
              rw [List.forall₂_map_left_iff]
              refine (List.Forall₂.flip ?_)
              refine (List.forall₂_iff_get.mpr ⟨h1.length_eq, ?_⟩)
              intro i hi hi'
              have := (List.forall₂_iff_get.mp h1).2 i hi hi'
              show Nested r.1 _ _
              rw [ih, this]
              have := hall' _ (List.get_mem (r :: rows) ⟨i, hi'⟩)
              rw [← this]
            · simp at h
      | _ => simp [Json.nd?] at h

theorem isArray_iff (j : Json) (a : NdArray) : IsArray j a ↔ Json.toNd j = .ok a := by
  unfold IsArray
  rw [nested_iff]
  constructor
  · intro h
    simp only [Json.toNd, h]
    rw [dif_pos a.wf]
  · intro h
    exact Json.toNd_ok h

theorem bareSeries_iff (h n : ℕ) (j : Json) (v : NumVal) :
    BareSeries h n j v ↔ (Factory.mk h n).ofJson j = .ok v := by
  constructor
  · intro hs
    cases hs with
    | number q => rfl
    | perTime j a hj hs =>
      have h1 := (isArray_iff j a).mp hj
      cases j with
      | arr l => simp [Factory.ofJson, h1, Factory.ofArray, hs, bind, Except.bind]
      | num q =>
        obtain ⟨sh, d, wf⟩ := a
        subst hs
        obtain ⟨l, rows, e, _⟩ := hj
        cases e
      | _ => simp [Json.toNd, Json.nd?] at h1
    | perScenario j a hj hs =>
      have h1 := (isArray_iff j a).mp hj
      cases j with
      | arr l => simp [Factory.ofJson, h1, Factory.ofArray, hs, bind, Except.bind]
      | num q =>
        obtain ⟨sh, d, wf⟩ := a
        subst hs
        obtain ⟨l, rows, e, _⟩ := hj
        cases e
      | _ => simp [Json.toNd, Json.nd?] at h1
    | full j a hj hs hh =>
      have h1 := (isArray_iff j a).mp hj
      cases j with
      | arr l => simp [Factory.ofJson, h1, Factory.ofArray, hs, hh, bind, Except.bind]
      | num q =>
        obtain ⟨sh, d, wf⟩ := a
        subst hs
        obtain ⟨l, rows, e, _⟩ := hj
        cases e
      | _ => simp [Json.toNd, Json.nd?] at h1
  · intro hs
    cases j with
    | num q =>
      simp only [Factory.ofJson, Except.ok.injEq] at hs
      subst hs
      exact .number q
    | arr l =>
      simp only [Factory.ofJson, bind, Except.bind] at hs
      cases h1 : Json.toNd (.arr l) with
      | error e => simp [h1] at hs
      | ok a =>
        simp only [h1, Factory.ofArray] at hs
        have hj := (isArray_iff _ a).mpr h1
        split at hs
        · rename_i e
          cases hs
          exact .perTime _ _ hj e
        · split at hs
          · rename_i e
            cases hs
            exact .perScenario _ _ hj e
          · split at hs
            · rename_i e1 e
              cases hs
              refine .full _ _ hj e ?_
              rintro rfl
              exact e1 e
            · split at hs <;> simp at hs
    | _ => simp [Factory.ofJson] at hs

theorem mem_iff_get? {o : List (String × Json)} (hk : (o.map Prod.fst).Nodup) (k : String) (x : Json) :
    (k, x) ∈ o ↔ Dict.get? o k = some x := ⟨Dict.get?_of_mem hk, Dict.mem_of_get?⟩

theorem series_iff {j : Json} (hp : Plain j) (h n : ℕ) (v : NumVal) :
    ReadSeries h n j v ↔ (Factory.mk h n).create (.json j) = .ok v := by
  unfold ReadSeries
  simp only [bareSeries_iff]
  cases hp with
  | obj l hk hl =>
    simp only [Factory.ofJson, reduceCtorEq, false_or, Factory.create, Json.obj.injEq, At, bareSeries_iff]
    constructor
    · rintro ⟨o, rfl, x, hx, he⟩
      rw [mem_iff_get? hk] at hx
      simp [hx, he]
    · intro he
      cases hx : Dict.get? l "value" with
      | none => simp [hx] at he
      | some x =>
        simp only [hx] at he
        exact ⟨l, rfl, x, (mem_iff_get? hk _ _).mpr hx, he⟩
  | _ => simp [Factory.create]

/-! ### Keys -/

theorem splitSepAux_join : ∀ (parts : List (List Char)) (acc : List Char), parts ≠ [] →
    (∀ p ∈ parts, ¬ [':', ':'] <:+: p) → (∀ p ∈ parts.dropLast, ¬ [':'] <:+ p) →
    splitSepAux (List.intercalate [':', ':'] parts) acc = (acc.reverse ++ parts.headD []) :: parts.tail
  | [], _, h, _, _ => absurd rfl h
  | [p], acc, _, h1, _ => by
    simp only [List.intercalate, List.intersperse_singleton, List.flatten_cons, List.flatten_nil, List.append_nil,
      List.headD_cons, List.tail_cons]
    exact splitSepAux_noSep p acc (h1 p (by simp))
  | p :: q :: r, acc, _, h1, h2 => by
    have e : List.intercalate [':', ':'] (p :: q :: r) = p ++ ':' :: ':' :: List.intercalate [':', ':'] (q :: r) := by
      simp [List.intercalate]
    rw [e, splitSepAux_sep p _ acc (h1 p (by simp)) (h2 p (by simp)),
      splitSepAux_join (q :: r) [] (by simp) (fun x hx => h1 x (by simp [hx])) (fun x hx => h2 x (by
        rw [List.dropLast_cons_of_ne_nil (by simp)]; exact List.mem_cons_of_mem _ hx))]
    simp

theorem parts_iff (key : String) (parts : List String) : Parts key parts ↔ splitKey key = parts := by
  constructor
  · rintro ⟨h0, h1, h2, h3⟩
    unfold splitKey
    rw [h1, splitSepAux_join _ _ (by simpa using h0) (by simpa [HasSep] using h2)
      (by
        intro p hp
        rw [← List.map_dropLast] at hp
        obtain ⟨x, hx, rfl⟩ := List.mem_map.mp hp
        exact h3 x hx)]
    cases parts with
    | nil => exact absurd rfl h0
    | cons p r => simp [List.map_map, Function.comp_def]
  · rintro rfl
    obtain ⟨h1, h2, h3⟩ := splitSepAux_parts key.toList [] (by simp) (by simp)
    refine ⟨by simpa [splitKey] using h3, ?_, ?_, ?_⟩
    · have := congrArg String.toList (joinKey_splitKey key)
      rw [← this]
      simp [joinKey]
    · intro p hp
      obtain ⟨l, hl, rfl⟩ := List.mem_map.mp hp
      simpa [HasSep] using h1 l hl
    · intro p hp
      rw [splitKey, ← List.map_dropLast] at hp
      obtain ⟨l, hl, rfl⟩ := List.mem_map.mp hp
      simpa [EndsColon] using h2 l hl

/-! ### Steps of reading -/

section Steps

variable {β γ : Type} {b : γ} {o : List (String × Json)}

theorem item_bind {k : String} {m : Json → PyM Json γ} :
    ((Json.item k >>= m) (.obj o)).1 = .ok b ↔ ∃ x, Dict.get? o k = some x ∧ (m x (.obj o)).1 = .ok b := by
  rw [PyM.bind_run]
  cases h : Dict.get? o k with
  | none => simp [Json.item, Dict.getE, h]
  | some x => simp [Json.item, Dict.getE, h]

theorem item_bind_not {k : String} {m : Json → PyM Json γ} {j : Json} (hj : ∀ o, j ≠ .obj o) :
    ((Json.item k >>= m) j).1 ≠ .ok b := by
  rw [PyM.bind_run]
  cases j with
  | obj o => exact absurd rfl (hj o)
  | _ => simp [Json.item]

theorem lift_bind {j : Json} {e : Except PyErr β} {m : β → PyM Json γ} :
    ((PyM.lift e >>= m) j).1 = .ok b ↔ ∃ x, e = .ok x ∧ (m x j).1 = .ok b := by
  rw [PyM.bind_run]
  cases e with
  | error e => simp
  | ok x => simp

theorem setItem_bind {k : String} {x : Json} {m : Unit → PyM Json γ} :
    ((Json.setItem k x >>= m) (.obj o)).1 = .ok b ↔ (m () (.obj (Dict.set o k x))).1 = .ok b := by
  rw [PyM.bind_run]
  simp [Json.setItem]

theorem createItem_bind {f : Factory} {k : String} {m : NumVal → PyM Json γ} :
    ((createItem f k >>= m) (.obj o)).1 = .ok b ↔
      ∃ v, (∃ x, Dict.get? o k = some x ∧ f.create (.json x) = .ok v) ∧
        (m v (.obj (Dict.set o k .native))).1 = .ok b := by
  rw [PyM.bind_run]
  unfold createItem
  rw [PyM.bind_run]
  cases h : Dict.get? o k with
  | none => simp [Json.item, Dict.getE, h]
  | some x =>
    cases hx : f.create (.json x) with
    | error e => simp [Json.item, Dict.getE, h, hx]
    | ok v => simp [Json.item, Dict.getE, h, hx, Json.setItem]

theorem createItem_bind_not {f : Factory} {k : String} {m : NumVal → PyM Json γ} {j : Json} (hj : ∀ o, j ≠ .obj o) :
    ((createItem f k >>= m) j).1 ≠ .ok b := by
  rw [PyM.bind_run]
  cases j with
  | obj o => exact absurd rfl (hj o)
  | _ => simp [createItem, Json.item]

theorem kwargs_bind {req opt : List String} {m : Unit → PyM Json γ} :
    ((Json.kwargs req opt >>= m) (.obj o)).1 = .ok b ↔
      (∀ k ∈ Dict.keys o, k ∈ req ++ opt) ∧ (∀ k ∈ req, k ∈ Dict.keys o) ∧ (m () (.obj o)).1 = .ok b := by
  rw [PyM.bind_run]
  simp only [Json.kwargs, Bool.and_eq_true, List.all_eq_true, Bool.or_eq_true, decide_eq_true_eq, List.mem_append]
  by_cases h : (∀ k ∈ Dict.keys o, k ∈ req ∨ k ∈ opt) ∧ ∀ k ∈ req, k ∈ Dict.keys o
  · rw [if_pos h]
    exact ⟨fun hm => ⟨h.1, h.2, hm⟩, fun hm => hm.2.2⟩
  · rw [if_neg h]
    simp only [reduceCtorEq, false_iff]
    rintro ⟨h1, h2, _⟩
    exact h ⟨h1, h2⟩

theorem kwargs_bind_not {req opt : List String} {m : Unit → PyM Json γ} {j : Json} (hj : ∀ o, j ≠ .obj o) :
    ((Json.kwargs req opt >>= m) j).1 ≠ .ok b := by
  rw [PyM.bind_run]
  cases j with
  | obj o => exact absurd rfl (hj o)
  | _ => simp [Json.kwargs]

theorem asStr_ok {x : Json} {s : String} : x.asStr = .ok s ↔ x = .str s := by
  cases x <;> simp [Json.asStr]

theorem asNum_ok {x : Json} {q : ℚ} : x.asNum = .ok q ↔ x = .num q := by
  cases x <;> simp [Json.asNum]

theorem strOr_bind {k d : String} {m : String → PyM Json γ} :
    ((Json.strOr k d >>= m) (.obj o)).1 = .ok b ↔
      ∃ s, (Dict.get? o k = some (.str s) ∨ (Dict.get? o k = none ∧ s = d)) ∧ (m s (.obj o)).1 = .ok b := by
  rw [PyM.bind_run]
  cases h : Dict.get? o k with
  | none => simp [Json.strOr, h]
  | some x =>
    simp only [Json.strOr, h, Option.some.injEq, reduceCtorEq, false_and, or_false]
    cases hx : x.asStr with
    | error e =>
      simp only [reduceCtorEq, false_iff, not_exists, not_and]
      rintro s rfl
      simp [Json.asStr] at hx
    | ok s =>
      have := asStr_ok.mp hx
      subst this
      simp

theorem mapMut_ok {f : PyM Json β} {l : List Json} {bs : List β} :
    (Json.mapMut f l).1 = .ok bs ↔ List.Forall₂ (fun x y => (f x).1 = .ok y) l bs := by
  induction l generalizing bs with
  | nil => simp [Json.mapMut, eq_comm]
  | cons x xs ih =>
    rw [Json.mapMut]
    rcases h : f x with ⟨_ | y, x'⟩
    · simp only [reduceCtorEq, false_iff]
      intro hh
      cases hh with
      | cons a _ => rw [h] at a; simp at a
    · rcases h2 : Json.mapMut f xs with ⟨_ | ys, xs'⟩
      · simp only [reduceCtorEq, false_iff]
        intro hh
        cases hh with
        | cons _ a => rw [← ih, h2] at a; simp at a
      · simp only [Except.ok.injEq]
        have ih' := @ih ys
        rw [h2] at ih'
        constructor
        · rintro rfl
          exact .cons (by rw [h]) (ih'.mp rfl)
        · intro hh
          cases hh with
          | cons a c =>
            rw [h] at a
            rw [← ih, h2] at c
            simp only [Except.ok.injEq] at a c
            rw [a, c]

theorem mapItems_ok {K : Type} {f : PyM Json β} {l : List (K × Json)} {bs : List (K × β)} :
    (Json.mapItems f l).1 = .ok bs ↔ List.Forall₂ (fun x y => x.1 = y.1 ∧ (f x.2).1 = .ok y.2) l bs := by
  induction l generalizing bs with
  | nil => simp [Json.mapItems, eq_comm]
  | cons x xs ih =>
    obtain ⟨k, x⟩ := x
    rw [Json.mapItems]
    rcases h : f x with ⟨_ | y, x'⟩
    · simp only [reduceCtorEq, false_iff]
      intro hh
      cases hh with
      | cons a _ => rw [h] at a; simp at a
    · rcases h2 : Json.mapItems f xs with ⟨_ | ys, xs'⟩
      · simp only [reduceCtorEq, false_iff]
        intro hh
        cases hh with
        | cons _ a => rw [← ih, h2] at a; simp at a
      · simp only [Except.ok.injEq]
        have ih' := @ih ys
        rw [h2] at ih'
        constructor
        · rintro rfl
          exact .cons ⟨rfl, by rw [h]⟩ (ih'.mp rfl)
        · intro hh
          cases hh with
          | @cons a c _ _ a' c' =>
            rw [h] at a'
            rw [← ih, h2] at c'
            obtain ⟨k', z⟩ := c
            simp only [Except.ok.injEq] at a' c'
            rw [a'.1, a'.2, c']

theorem overList_bind {k : String} {f : PyM Json β} {m : List β → PyM Json γ} :
    ((Json.overList k f >>= m) (.obj o)).1 = .ok b ↔
      ∃ l bs, (Dict.get? o k = some (.arr l) ∧ List.Forall₂ (fun x y => (f x).1 = .ok y) l bs) ∧
        (m bs (.obj (Dict.set o k (.arr (Json.mapMut f l).2)))).1 = .ok b := by
  rw [PyM.bind_run]
  unfold Json.overList
  rw [PyM.bind_run]
  cases h : Dict.get? o k with
  | none => simp [Json.item, Dict.getE, h]
  | some x =>
    cases x with
    | arr l =>
      simp only [Json.item, Dict.getE, h, Json.setItem, Option.some.injEq, Json.arr.injEq, and_assoc, exists_and_left,
        exists_eq_left', ← mapMut_ok]
      cases h2 : (Json.mapMut f l).1 with
      | error e => simp
      | ok bs => simp
    | _ => simp [Json.item, Dict.getE, h]

theorem overList_bind_not {k : String} {f : PyM Json β} {m : List β → PyM Json γ} {j : Json} (hj : ∀ o, j ≠ .obj o) :
    ((Json.overList k f >>= m) j).1 ≠ .ok b := by
  rw [PyM.bind_run]
  cases j with
  | obj o => exact absurd rfl (hj o)
  | _ => simp [Json.overList, Json.item]

theorem overItems_bind {k : String} {f : PyM Json β} {m : Dict String β → PyM Json γ} :
    ((Json.overItems k f >>= m) (.obj o)).1 = .ok b ↔
      ∃ l bs, (Dict.get? o k = some (.obj l) ∧ List.Forall₂ (fun x y => x.1 = y.1 ∧ (f x.2).1 = .ok y.2) l bs) ∧
        (m (Dict.ofList bs) (.obj (Dict.set o k (.obj (Json.mapItems f l).2)))).1 = .ok b := by
  rw [PyM.bind_run]
  unfold Json.overItems
  rw [PyM.bind_run]
  cases h : Dict.get? o k with
  | none => simp [Json.item, Dict.getE, h]
  | some x =>
    cases x with
    | obj l =>
      simp only [Json.item, Dict.getE, h, Json.setItem, Option.some.injEq, Json.obj.injEq, and_assoc, exists_and_left,
        exists_eq_left', ← mapItems_ok]
      cases h2 : (Json.mapItems f l).1 with
      | error e => simp [Except.map]
      | ok bs => simp [Except.map]
    | _ => simp [Json.item, Dict.getE, h]

theorem overItems_bind_not {k : String} {f : PyM Json β} {m : Dict String β → PyM Json γ} {j : Json}
    (hj : ∀ o, j ≠ .obj o) : ((Json.overItems k f >>= m) j).1 ≠ .ok b := by
  rw [PyM.bind_run]
  cases j with
  | obj o => exact absurd rfl (hj o)
  | _ => simp [Json.overItems, Json.item]

theorem overSplitItems_bind {k : String} {f : PyM Json β} {m : Dict (List String) β → PyM Json γ}
    (ht : ∀ l, Dict.get? o k ≠ some (.tobj l)) :
    ((Json.overSplitItems k f >>= m) (.obj o)).1 = .ok b ↔
      ∃ (l : List (String × Json)) (bs : List (String × β)),
        (Dict.get? o k = some (.obj l) ∧ List.Forall₂ (fun x y => x.1 = y.1 ∧ (f x.2).1 = .ok y.2) l bs) ∧
        (m (Dict.ofList (bs.map fun p => (splitKey p.1, p.2)))
          (.obj (Dict.set o k (.obj (Json.mapItems f l).2)))).1 = .ok b := by
  rw [PyM.bind_run]
  unfold Json.overSplitItems
  rw [PyM.bind_run]
  cases h : Dict.get? o k with
  | none => simp [Json.item, Dict.getE, h]
  | some x =>
    cases x with
    | obj l =>
      simp only [Json.item, Dict.getE, h, Json.setItem, Option.some.injEq, Json.obj.injEq, and_assoc, exists_and_left,
        exists_eq_left', ← mapItems_ok]
      cases h2 : (Json.mapItems f l).1 with
      | error e => simp [Except.map]
      | ok bs => simp [Except.map]
    | tobj l => exact absurd h (ht l)
    | _ => simp [Json.item, Dict.getE, h]

theorem overSplitItems_bind_not {k : String} {f : PyM Json β} {m : Dict (List String) β → PyM Json γ} {j : Json}
    (hj : ∀ o, j ≠ .obj o) : ((Json.overSplitItems k f >>= m) j).1 ≠ .ok b := by
  rw [PyM.bind_run]
  cases j with
  | obj o => exact absurd rfl (hj o)
  | _ => simp [Json.overSplitItems, Json.item]

theorem keys_set_iff {k k' : String} {v : Json} : k' ∈ Dict.keys (Dict.set o k v) ↔ k' = k ∨ k' ∈ Dict.keys o := by
  have := set_keys_mem o k v k'
  unfold Dict.keys
  rw [this, or_comm]

end Steps

/-! ### Elements of a study -/

theorem only_iff {o : List (String × Json)} {keys : List String} : Only o keys ↔ ∀ k ∈ Dict.keys o, k ∈ keys := by
  simp [Only, Dict.keys]

theorem at_iff {o : List (String × Json)} (hk : (o.map Prod.fst).Nodup) {k : String} {P : Json → Prop} :
    At o k P ↔ ∃ x, Dict.get? o k = some x ∧ P x := by
  simp only [At, mem_iff_get? hk]

theorem at_series_iff {o : List (String × Json)} (hk : (o.map Prod.fst).Nodup) (hp : ∀ p ∈ o, Plain p.2) {k : String}
    {h n : ℕ} {v : NumVal} : At o k (ReadSeries h n · v) ↔
      ∃ x, Dict.get? o k = some x ∧ (Factory.mk h n).create (.json x) = .ok v := by
  rw [at_iff hk]
  constructor
  · rintro ⟨x, h1, h2⟩
    exact ⟨x, h1, (series_iff (hp _ (Dict.mem_of_get? h1)) _ _ _).mp h2⟩
  · rintro ⟨x, h1, h2⟩
    exact ⟨x, h1, (series_iff (hp _ (Dict.mem_of_get? h1)) _ _ _).mpr h2⟩

theorem at_text_iff {o : List (String × Json)} (hk : (o.map Prod.fst).Nodup) {k s : String} :
    At o k (· = .str s) ↔ Dict.get? o k = some (.str s) := by
  simp [at_iff hk]

theorem textOr_iff {o : List (String × Json)} (hk : (o.map Prod.fst).Nodup) {k d s : String} :
    TextOr o k d s ↔ (Dict.get? o k = some (.str s) ∨ (Dict.get? o k = none ∧ s = d)) := by
  simp only [TextOr, mem_iff_get? hk]
  cases Dict.get? o k <;> simp

theorem key_of_get? {o : List (String × Json)} {k : String} {x : Json} (h : Dict.get? o k = some x) :
    k ∈ Dict.keys o := List.mem_map_of_mem (f := Prod.fst) (Dict.mem_of_get? h)

theorem consumption_says {j : Json} (hp : Plain j) {h n : ℕ} {c : Consumption} :
    (Consumption.fromJson ⟨h, n⟩ j).1 = .ok c ↔ SaysConsumption h n j c := by
  unfold Consumption.fromJson SaysConsumption
  cases hp with
  | obj o hk ho =>
    simp only [createItem_bind, kwargs_bind, strOr_bind, item_bind, lift_bind, overList_bind, overItems_bind, setItem_bind, asNum_ok,
      PyM.pure_run, Dict.get?_set, String.reduceEq, if_false, if_true, Except.ok.injEq, Json.obj.injEq, keys_set_iff]
    constructor
    · rintro ⟨v, h1, w, h2, h3, h4, s, h5, rfl⟩
      refine ⟨o, rfl, only_iff.mpr ?_, (at_series_iff hk ho).mpr h1, (at_series_iff hk ho).mpr h2, (textOr_iff hk).mpr h5⟩
      intro k hk'
      have := h3 k (.inr (.inr hk'))
      simp at this ⊢
      tauto
    · rintro ⟨o', rfl, h1, h2, h3, h4⟩
      refine ⟨_, (at_series_iff hk ho).mp h2, _, (at_series_iff hk ho).mp h3, ?_, by simp, _, (textOr_iff hk).mp h4, rfl⟩
      have := only_iff.mp h1
      rintro k (rfl | rfl | hk')
      · simp
      · simp
      · have := this k hk'
        simp at this ⊢
        tauto
  | _ =>
    constructor
    · intro hh
      exact absurd hh (createItem_bind_not (by simp))
    · rintro ⟨o, ho, _⟩
      cases ho

theorem production_says {j : Json} (hp : Plain j) {h n : ℕ} {c : Production} :
    (Production.fromJson ⟨h, n⟩ j).1 = .ok c ↔ SaysProduction h n j c := by
  unfold Production.fromJson SaysProduction
  cases hp with
  | obj o hk ho =>
    simp only [createItem_bind, kwargs_bind, strOr_bind, item_bind, lift_bind, overList_bind, overItems_bind, setItem_bind, asNum_ok,
      PyM.pure_run, Dict.get?_set, String.reduceEq, if_false, if_true, Except.ok.injEq, Json.obj.injEq, keys_set_iff]
    constructor
    · rintro ⟨v, h1, w, h2, h3, h4, s, h5, rfl⟩
      refine ⟨o, rfl, only_iff.mpr ?_, (at_series_iff hk ho).mpr h1, (at_series_iff hk ho).mpr h2, (textOr_iff hk).mpr h5⟩
      intro k hk'
      have := h3 k (.inr (.inr hk'))
      simp at this ⊢
      tauto
    · rintro ⟨o', rfl, h1, h2, h3, h4⟩
      refine ⟨_, (at_series_iff hk ho).mp h2, _, (at_series_iff hk ho).mp h3, ?_, by simp, _, (textOr_iff hk).mp h4, rfl⟩
      have := only_iff.mp h1
      rintro k (rfl | rfl | hk')
      · simp
      · simp
      · have := this k hk'
        simp at this ⊢
        tauto
  | _ =>
    constructor
    · intro hh
      exact absurd hh (createItem_bind_not (by simp))
    · rintro ⟨o, ho, _⟩
      cases ho

theorem storage_says {j : Json} (hp : Plain j) {h n : ℕ} {c : Storage} :
    (Storage.fromJson ⟨h, n⟩ j).1 = .ok c ↔ SaysStorage h n j c := by
  unfold Storage.fromJson SaysStorage
  cases hp with
  | obj o hk ho =>
    simp only [createItem_bind, kwargs_bind, strOr_bind, item_bind, lift_bind, overList_bind, overItems_bind, setItem_bind, asNum_ok,
      PyM.pure_run, Dict.get?_set, String.reduceEq, if_false, if_true, Except.ok.injEq, Json.obj.injEq, keys_set_iff]
    constructor
    · rintro ⟨v1, h1, v2, h2, v3, h3, v4, h4, v5, h5, h6, h7, s, h8, x, h9, q, rfl, rfl⟩
      have hn : "name" ∈ Dict.keys o := by simpa using h7 "name" (by simp)
      refine ⟨o, rfl, only_iff.mpr fun k hk' => h6 k (by tauto), (at_text_iff hk).mpr ?_, (at_series_iff hk ho).mpr h2,
        (at_series_iff hk ho).mpr h3, (at_series_iff hk ho).mpr h4, (at_series_iff hk ho).mpr h1,
        (at_iff hk).mpr ⟨_, h9, rfl⟩, (at_series_iff hk ho).mpr h5⟩
      rcases h8 with h8 | ⟨h8, _⟩
      · exact h8
      · exact absurd hn ((Dict.get?_eq_none_iff _ _).mp h8)
    · rintro ⟨o', rfl, h1, h2, h3, h4, h5, h6, h7, h8⟩
      obtain ⟨x, h7, rfl⟩ := (at_iff hk).mp h7
      have h2 := (at_text_iff hk).mp h2
      refine ⟨_, (at_series_iff hk ho).mp h6, _, (at_series_iff hk ho).mp h3, _, (at_series_iff hk ho).mp h4, _,
        (at_series_iff hk ho).mp h5, _, (at_series_iff hk ho).mp h8, ?_, ?_, _, .inl h2, _, h7, _, rfl, rfl⟩
      · have := only_iff.mp h1
        rintro k (rfl | rfl | rfl | rfl | rfl | hk')
        · simp
        · simp
        · simp
        · simp
        · simp
        · exact this k hk'
      · simp [key_of_get? h2, key_of_get? h7]
  | _ =>
    constructor
    · intro hh
      exact absurd hh (createItem_bind_not (by simp))
    · rintro ⟨o, ho, _⟩
      cases ho

theorem link_says {j : Json} (hp : Plain j) {h n : ℕ} {c : Link} :
    (Link.fromJson ⟨h, n⟩ j).1 = .ok c ↔ SaysLink h n j c := by
  unfold Link.fromJson SaysLink
  cases hp with
  | obj o hk ho =>
    simp only [createItem_bind, kwargs_bind, strOr_bind, item_bind, lift_bind, overList_bind, overItems_bind, setItem_bind, asNum_ok,
      PyM.pure_run, Dict.get?_set, String.reduceEq, if_false, if_true, Except.ok.injEq, Json.obj.injEq, keys_set_iff]
    constructor
    · rintro ⟨v1, h1, v2, h2, h6, h7, s, h8, rfl⟩
      have hn : "dest" ∈ Dict.keys o := by simpa using h7 "dest" (by simp)
      refine ⟨o, rfl, only_iff.mpr fun k hk' => h6 k (by tauto), (at_text_iff hk).mpr ?_, (at_series_iff hk ho).mpr h2,
        (at_series_iff hk ho).mpr h1⟩
      rcases h8 with h8 | ⟨h8, _⟩
      · exact h8
      · exact absurd hn ((Dict.get?_eq_none_iff _ _).mp h8)
    · rintro ⟨o', rfl, h1, h2, h3, h4⟩
      have h2 := (at_text_iff hk).mp h2
      refine ⟨_, (at_series_iff hk ho).mp h4, _, (at_series_iff hk ho).mp h3, ?_, ?_, _, .inl h2, rfl⟩
      · have := only_iff.mp h1
        rintro k (rfl | rfl | hk')
        · simp
        · simp
        · exact this k hk'
      · simp [key_of_get? h2]
  | _ =>
    constructor
    · intro hh
      exact absurd hh (createItem_bind_not (by simp))
    · rintro ⟨o, ho, _⟩
      cases ho

theorem forall₂_iff_of {α β : Type} {R S : α → β → Prop} {l : List α} {m : List β} (h : ∀ a ∈ l, ∀ b, R a b ↔ S a b) :
    List.Forall₂ R l m ↔ List.Forall₂ S l m := by
  induction l generalizing m with
  | nil => cases m <;> simp
  | cons a l ih =>
    cases m with
    | nil => simp
    | cons b m =>
      rw [List.forall₂_cons, List.forall₂_cons, h a (by simp), ih fun a ha b => h a (by simp [ha]) b]

theorem keys_of_forall₂ {K α β : Type} {R : α → β → Prop} {l : List (K × α)} {m : List (K × β)}
    (h : List.Forall₂ (fun x y => x.1 = y.1 ∧ R x.2 y.2) l m) : l.map Prod.fst = m.map Prod.fst := by
  induction h with
  | nil => rfl
  | cons a _ ih => simp [a.1, ih]

theorem elements_iff {o : List (String × Json)} (hk : (o.map Prod.fst).Nodup) (hp : ∀ p ∈ o, Plain p.2) {k : String} {α : Type}
    {f : PyM Json α} {R : Json → α → Prop} (hf : ∀ x, Plain x → ∀ a, (f x).1 = .ok a ↔ R x a) {l : List α} :
    At o k (Elements R · l) ↔
      ∃ js, Dict.get? o k = some (.arr js) ∧ List.Forall₂ (fun x y => (f x).1 = .ok y) js l := by
  rw [at_iff hk]
  have key : ∀ js, Dict.get? o k = some (.arr js) → ∀ x ∈ js, Plain x := by
    intro js hjs
    have := hp _ (Dict.mem_of_get? hjs)
    cases this with
    | arr _ h => exact h
  constructor
  · rintro ⟨x, h1, js, rfl, h2⟩
    exact ⟨js, h1, (forall₂_iff_of fun x hx a => hf x (key js h1 x hx) a).mpr h2⟩
  · rintro ⟨js, h1, h2⟩
    exact ⟨_, h1, js, rfl, (forall₂_iff_of fun x hx a => hf x (key js h1 x hx) a).mp h2⟩

theorem named_iff {o : List (String × Json)} (hk : (o.map Prod.fst).Nodup) (hp : ∀ p ∈ o, Plain p.2) {k : String} {α : Type}
    {f : PyM Json α} {R : Json → α → Prop} (hf : ∀ x, Plain x → ∀ a, (f x).1 = .ok a ↔ R x a) {d : Dict String α} :
    At o k (Named R · d) ↔
      ∃ l bs, (Dict.get? o k = some (.obj l) ∧ List.Forall₂ (fun x y => x.1 = y.1 ∧ (f x.2).1 = .ok y.2) l bs) ∧
        Dict.ofList bs = d := by
  rw [at_iff hk]
  have key : ∀ l, Dict.get? o k = some (.obj l) → (l.map Prod.fst).Nodup ∧ ∀ p ∈ l, Plain p.2 := by
    intro js hjs
    have := hp _ (Dict.mem_of_get? hjs)
    cases this with
    | obj _ h h' => exact ⟨h, h'⟩
  constructor
  · rintro ⟨x, h1, l, rfl, h2⟩
    have h3 := (forall₂_iff_of fun (x : String × Json) hx (a : String × α) =>
      and_congr_right fun _ : x.1 = a.1 => hf x.2 ((key l h1).2 x hx) a.2).mpr h2
    refine ⟨l, d, ⟨h1, h3⟩, Dict.ofList_of_nodup ?_⟩
    rw [← keys_of_forall₂ h2]
    exact (key l h1).1
  · rintro ⟨l, bs, ⟨h1, h2⟩, rfl⟩
    have h3 := (forall₂_iff_of fun (x : String × Json) hx (a : String × α) =>
      and_congr_right fun _ : x.1 = a.1 => hf x.2 ((key l h1).2 x hx) a.2).mp h2
    refine ⟨_, h1, l, rfl, ?_⟩
    rw [Dict.ofList_of_nodup]
    · exact h3
    · rw [← keys_of_forall₂ h3]
      exact (key l h1).1

theorem inputNode_says {j : Json} (hp : Plain j) {h n : ℕ} {c : InputNode} :
    (InputNode.fromJson ⟨h, n⟩ j).1 = .ok c ↔ SaysNode h n j c := by
  unfold InputNode.fromJson SaysNode
  cases hp with
  | obj o hk ho =>
    simp only [createItem_bind, kwargs_bind, strOr_bind, item_bind, lift_bind, overList_bind, overItems_bind, setItem_bind, asNum_ok,
      PyM.pure_run, Dict.get?_set, String.reduceEq, if_false, if_true, Except.ok.injEq, Json.obj.injEq, keys_set_iff]
    constructor
    · rintro ⟨l1, b1, h1, l2, b2, h2, l3, b3, h3, l4, b4, h4, h6, h7, rfl⟩
      refine ⟨o, rfl, only_iff.mpr fun k hk' => h6 k (by tauto),
        (elements_iff hk ho fun x hx a => consumption_says hx).mpr ⟨_, h1⟩,
        (elements_iff hk ho fun x hx a => production_says hx).mpr ⟨_, h2⟩,
        (elements_iff hk ho fun x hx a => storage_says hx).mpr ⟨_, h3⟩,
        (elements_iff hk ho fun x hx a => link_says hx).mpr ⟨_, h4⟩⟩
    · rintro ⟨o', rfl, h0, h1, h2, h3, h4⟩
      obtain ⟨l1, h1⟩ := (elements_iff hk ho fun x hx a => consumption_says hx).mp h1
      obtain ⟨l2, h2⟩ := (elements_iff hk ho fun x hx a => production_says hx).mp h2
      obtain ⟨l3, h3⟩ := (elements_iff hk ho fun x hx a => storage_says hx).mp h3
      obtain ⟨l4, h4⟩ := (elements_iff hk ho fun x hx a => link_says hx).mp h4
      refine ⟨_, _, h1, _, _, h2, _, _, h3, _, _, h4, ?_, by simp, rfl⟩
      have := only_iff.mp h0
      intro k hk'
      by_cases hko : k ∈ Dict.keys o
      · exact this k hko
      · simp only [hko, or_false] at hk'
        simp
        tauto
  | _ =>
    constructor
    · intro hh
      exact absurd hh (overList_bind_not (by simp))
    · rintro ⟨o, ho, _⟩
      cases ho

theorem inputNetwork_says {j : Json} (hp : Plain j) {h n : ℕ} {c : InputNetwork} :
    (InputNetwork.fromJson ⟨h, n⟩ j).1 = .ok c ↔ SaysNetwork h n j c := by
  unfold InputNetwork.fromJson SaysNetwork
  cases hp with
  | obj o hk ho =>
    simp only [createItem_bind, kwargs_bind, strOr_bind, item_bind, lift_bind, overList_bind, overItems_bind, setItem_bind, asNum_ok,
      PyM.pure_run, Dict.get?_set, String.reduceEq, if_false, if_true, Except.ok.injEq, Json.obj.injEq, keys_set_iff]
    constructor
    · rintro ⟨l1, b1, h1, h6, h7, rfl⟩
      exact ⟨o, rfl, only_iff.mpr fun k hk' => h6 k (by tauto),
        (named_iff hk ho fun x hx a => inputNode_says hx).mpr ⟨_, _, h1, rfl⟩⟩
    · rintro ⟨o', rfl, h0, h1⟩
      obtain ⟨l1, b1, h1, h2⟩ := (named_iff hk ho fun x hx a => inputNode_says hx).mp h1
      refine ⟨_, _, h1, ?_, by simp, by rw [h2]⟩
      have := only_iff.mp h0
      intro k hk'
      by_cases hko : k ∈ Dict.keys o
      · exact this k hko
      · simp only [hko, or_false] at hk'
        simp
        tauto
  | _ =>
    constructor
    · intro hh
      exact absurd hh (overItems_bind_not (by simp))
    · rintro ⟨o, ho, _⟩
      cases ho

theorem splitKey_nodup {l : List String} (h : l.Nodup) : (l.map splitKey).Nodup :=
  h.map fun a b e => by rw [← joinKey_splitKey a, e, joinKey_splitKey b]

theorem split_iff {o : List (String × Json)} (hk : (o.map Prod.fst).Nodup) (hp : ∀ p ∈ o, Plain p.2) {k : String} {α : Type}
    {f : PyM Json α} {R : Json → α → Prop} (hf : ∀ x, Plain x → ∀ a, (f x).1 = .ok a ↔ R x a) {d : Dict (List String) α} :
    (At o k fun x => ∃ l, x = .obj l ∧ List.Forall₂ (fun p q => Parts p.1 q.1 ∧ R p.2 q.2) l d) ↔
      ∃ (l : List (String × Json)) (bs : List (String × α)),
        (Dict.get? o k = some (.obj l) ∧ List.Forall₂ (fun x y => x.1 = y.1 ∧ (f x.2).1 = .ok y.2) l bs) ∧
        Dict.ofList (bs.map fun p => (splitKey p.1, p.2)) = d := by
  rw [at_iff hk]
  have key : ∀ l, Dict.get? o k = some (.obj l) → (l.map Prod.fst).Nodup ∧ ∀ p ∈ l, Plain p.2 := by
    intro js hjs
    have := hp _ (Dict.mem_of_get? hjs)
    cases this with
    | obj _ h h' => exact ⟨h, h'⟩
  have hnd : ∀ bs : List (String × α), (bs.map Prod.fst).Nodup → ((bs.map fun p => (splitKey p.1, p.2)).map Prod.fst).Nodup := by
    intro bs hbs
    have := splitKey_nodup hbs
    rwa [List.map_map] at this ⊢
  constructor
  · rintro ⟨x, h1, l, rfl, h2⟩
    have hl := key l h1
    have : ∃ bs : List (String × α), List.Forall₂ (fun x y => x.1 = y.1 ∧ (f x.2).1 = .ok y.2) l bs ∧
        (bs.map fun p => (splitKey p.1, p.2)) = d := by
      have hl2 := hl.2
      clear hl h1 key
      induction h2 with
      | nil => exact ⟨[], .nil, rfl⟩
      | @cons p q l d hpq _ ih =>
        obtain ⟨bs, hb, rfl⟩ := ih fun x hx => hl2 x (by simp [hx])
        refine ⟨(p.1, q.2) :: bs, .cons ⟨rfl, (hf _ (hl2 p (by simp)) _).mpr hpq.2⟩ hb, ?_⟩
        rw [List.map_cons, (parts_iff _ _).mp hpq.1]
    obtain ⟨bs, hb, rfl⟩ := this
    refine ⟨l, bs, ⟨‹_›, hb⟩, Dict.ofList_of_nodup (hnd bs ?_)⟩
    rw [← keys_of_forall₂ (R := fun x y => (f x).1 = .ok y) hb]
    exact hl.1
  · rintro ⟨l, bs, ⟨h1, h2⟩, rfl⟩
    refine ⟨_, h1, l, rfl, ?_⟩
    rw [Dict.ofList_of_nodup]
    · rw [List.forall₂_map_right_iff]
      refine (forall₂_iff_of fun (x : String × Json) hx (a : String × α) => ?_).mp h2
      rw [hf x.2 ((key l h1).2 x hx) a.2, parts_iff]
      refine and_congr_left fun _ => ⟨fun e => by rw [e], fun e => ?_⟩
      rw [← joinKey_splitKey x.1, e, joinKey_splitKey]
    · apply hnd
      rw [← keys_of_forall₂ (R := fun x y => (f x).1 = .ok y) h2]
      exact (key l h1).1

theorem not_tobj {o : List (String × Json)} (hp : ∀ p ∈ o, Plain p.2) {k : String} (l : List (List String × Json)) :
    Dict.get? o k ≠ some (.tobj l) := by
  intro h
  have := hp _ (Dict.mem_of_get? h)
  cases this

theorem createValue_says {j : Json} (hp : Plain j) {h n : ℕ} {v : NumVal} :
    (createValue ⟨h, n⟩ j).1 = .ok v ↔ ReadSeries h n j v := by
  rw [series_iff hp]
  rfl

theorem converter_says {j : Json} (hp : Plain j) {h n : ℕ} {c : Converter} :
    (Converter.fromJson ⟨h, n⟩ j).1 = .ok c ↔ SaysConverter h n j c := by
  unfold Converter.fromJson SaysConverter
  cases hp with
  | obj o hk ho =>
    rw [createItem_bind]
    simp only [createItem_bind]
    have ht : ∀ l, Dict.get? (Dict.set (Dict.set o "cost" .native) "max" .native) "src_ratios" ≠ some (.tobj l) := by
      intro l
      simp only [Dict.get?_set, String.reduceEq, if_false]
      exact not_tobj ho l
    simp only [overSplitItems_bind ht, createItem_bind, kwargs_bind, strOr_bind, item_bind, lift_bind, overList_bind, overItems_bind, setItem_bind, asNum_ok,
      PyM.pure_run, Dict.get?_set, String.reduceEq, if_false, if_true, Except.ok.injEq, Json.obj.injEq, keys_set_iff]
    constructor
    · rintro ⟨v1, h1, v2, h2, l, bs, h3, h6, h7, s, h8, s2, h9, s3, h10, rfl⟩
      have hn : ∀ k ∈ ["name", "dest_network", "dest_node"], k ∈ Dict.keys o := by
        intro k hk'
        simp only [List.mem_cons, List.not_mem_nil, or_false] at hk'
        rcases hk' with rfl | rfl | rfl
        · simpa using h7 "name" (by simp)
        · simpa using h7 "dest_network" (by simp)
        · simpa using h7 "dest_node" (by simp)
      have text : ∀ {k d s : String}, k ∈ ["name", "dest_network", "dest_node"] →
          (Dict.get? o k = some (.str s) ∨ (Dict.get? o k = none ∧ s = d)) → At o k (· = .str s) := by
        intro k d s hk' h
        rcases h with h | ⟨h, _⟩
        · exact (at_text_iff hk).mpr h
        · exact absurd (hn k hk') ((Dict.get?_eq_none_iff _ _).mp h)
      exact ⟨o, v1, v2, rfl, rfl, rfl, only_iff.mpr fun k hk' => h6 k (by tauto), text (by simp) h8, text (by simp) h9,
        text (by simp) h10, (at_series_iff hk ho).mpr h1, (at_series_iff hk ho).mpr h2,
        (split_iff hk ho fun x hx a => createValue_says hx).mpr ⟨l, bs, h3, rfl⟩⟩
    · rintro ⟨o', v1, v2, rfl, e1, e2, h1, h2, h3, h4, h5, h6, h7⟩
      have h2 := (at_text_iff hk).mp h2
      have h3 := (at_text_iff hk).mp h3
      have h4 := (at_text_iff hk).mp h4
      obtain ⟨l, bs, h7, h8⟩ := (split_iff hk ho fun x hx a => createValue_says hx).mp h7
      refine ⟨_, (at_series_iff hk ho).mp h5, _, (at_series_iff hk ho).mp h6, _, _, h7, ?_, ?_, _, .inl h2, _, .inl h3, _,
        .inl h4, ?_⟩
      · have := only_iff.mp h1
        intro k hk'
        by_cases hko : k ∈ Dict.keys o
        · exact this k hko
        · simp only [hko, or_false] at hk'
          simp
          tauto
      · simp [key_of_get? h2, key_of_get? h3, key_of_get? h4]
      · obtain ⟨a, b, c1, d, e, f⟩ := c
        simp only at e1 e2 h8
        rw [e1, e2, h8]
  | _ =>
    constructor
    · intro hh
      exact absurd hh (createItem_bind_not (by simp))
    · rintro ⟨o, _, _, ho, _⟩
      cases ho

theorem falsy_iff {x : Json} (hp : Plain x) : x.falsy = true ↔ Falsy x := by
  cases hp <;> simp [Json.falsy, Falsy]

theorem asNat_ok {x : Json} {n : ℕ} : x.asNat = .ok n ↔ x = .num n := by
  constructor
  · intro h
    cases x with
    | num q =>
      simp only [Json.asNat] at h
      split at h
      · rename_i hq
        cases h
        congr
        have : ((q.num.toNat : ℤ) : ℚ) = q.num := by rw [Int.toNat_of_nonneg hq.2]
        have h2 : (q.num : ℚ) = q := by
          have := Rat.num_div_den q
          rw [hq.1] at this
          simpa using this
        exact (h2.symm.trans this.symm).trans (Int.cast_natCast _)
      · simp at h
    | _ => simp [Json.asNat] at h
  · rintro rfl
    exact Json.asNat_natCast n

theorem version_says {x : Json} (hp : Plain x) {v : String} :
    (∃ a, Study.versionArg x = .ok a ∧ (Study.init 0 0 a).version = v) ↔ SaysVersion x v := by
  unfold SaysVersion Study.versionArg
  rw [← falsy_iff hp]
  cases hf : x.falsy with
  | true =>
    simp only [if_true, Except.ok.injEq, exists_eq_left', Study.init, Study.hadarVersion, true_and]
    constructor
    · intro h
      exact .inr h.symm
    · rintro (⟨rfl, h⟩ | h)
      · simp [Json.falsy, h] at hf
      · exact h.symm
  | false =>
    simp only [Bool.false_eq_true, if_false, false_and, or_false]
    cases x with
    | str s =>
      have : s ≠ "" := by simpa [Json.falsy] using hf
      simp only [Json.asStr, Except.map, Except.ok.injEq, exists_eq_left', Study.init, this, if_false, Json.str.injEq]
      constructor
      · rintro rfl
        exact ⟨rfl, this⟩
      · exact fun h => h.1
    | _ => simp [Json.asStr, Except.map]

theorem plain_of_get? {o : List (String × Json)} (hp : ∀ p ∈ o, Plain p.2) {k : String} {x : Json}
    (h : Dict.get? o k = some x) : Plain x := hp _ (Dict.mem_of_get? h)

theorem study_says {j : Json} (hp : Plain j) {s : Study} : (Study.fromJson j).1 = .ok s ↔ SaysStudy j s := by
  have e : (Study.fromJson j).1 = (Study.fromJsonCopy j).1 := rfl
  rw [e]
  unfold Study.fromJsonCopy SaysStudy
  cases hp with
  | obj o hk ho =>
    simp only [createItem_bind, kwargs_bind, strOr_bind, item_bind, lift_bind, overList_bind, overItems_bind, setItem_bind, asNum_ok,
      PyM.pure_run, Dict.get?_set, String.reduceEq, if_false, if_true, Except.ok.injEq, Json.obj.injEq, keys_set_iff, asNat_ok]
    constructor
    · rintro ⟨x1, h1, a, rfl, x2, h2, b, rfl, x3, h3, v, h4, l1, b1, h5, l2, b2, h6, rfl⟩
      refine ⟨o, rfl, (at_iff hk).mpr ⟨_, h1, rfl⟩, (at_iff hk).mpr ⟨_, h2, rfl⟩,
        (at_iff hk).mpr ⟨_, h3, (version_says (plain_of_get? ho h3)).mp ⟨v, h4, rfl⟩⟩,
        (named_iff hk ho fun x hx a => inputNetwork_says hx).mpr ⟨_, _, h5, rfl⟩,
        (named_iff hk ho fun x hx a => converter_says hx).mpr ⟨_, _, h6, rfl⟩⟩
    · rintro ⟨o', rfl, h1, h2, h3, h4, h5⟩
      obtain ⟨_, h1, rfl⟩ := (at_iff hk).mp h1
      obtain ⟨_, h2, rfl⟩ := (at_iff hk).mp h2
      obtain ⟨x3, h3, h3'⟩ := (at_iff hk).mp h3
      obtain ⟨v, h6, h7⟩ := (version_says (plain_of_get? ho h3)).mpr h3'
      obtain ⟨l1, b1, h4, e4⟩ := (named_iff hk ho fun x hx a => inputNetwork_says hx).mp h4
      obtain ⟨l2, b2, h5, e5⟩ := (named_iff hk ho fun x hx a => converter_says hx).mp h5
      refine ⟨_, h1, _, rfl, _, h2, _, rfl, _, h3, v, h6, _, _, h4, _, _, h5, ?_⟩
      obtain ⟨ver, nets, convs, a, b⟩ := s
      simp only at e4 e5 h7
      rw [e4, e5, ← h7]
      rfl
  | _ =>
    constructor
    · intro hh
      exact absurd hh (item_bind_not (by simp))
    · rintro ⟨o, ho, _⟩
      cases ho

/-! ### Elements of a result -/

theorem array_bind {γ : Type} {b : γ} {o : List (String × Json)} {k : String} {m : NdArray → PyM Json γ} :
    ((Json.array k >>= m) (.obj o)).1 = .ok b ↔
      ∃ a, (∃ x, Dict.get? o k = some x ∧ x.toNd = .ok a) ∧ (m a (.obj o)).1 = .ok b := by
  rw [PyM.bind_run]
  unfold Json.array
  rw [PyM.bind_run]
  cases h : Dict.get? o k with
  | none => simp [Json.item, Dict.getE, h]
  | some x =>
    cases hx : x.toNd with
    | error e => simp [Json.item, Dict.getE, h, hx]
    | ok v => simp [Json.item, Dict.getE, h, hx]

theorem at_array_iff {o : List (String × Json)} (hk : (o.map Prod.fst).Nodup) {k : String} {a : NdArray} :
    At o k (IsArray · a) ↔ ∃ x, Dict.get? o k = some x ∧ x.toNd = .ok a := by
  simp only [at_iff hk, isArray_iff]

theorem outConsumption_says {j : Json} (hp : Plain j) {c : OutputConsumption} :
    (OutputConsumption.fromJson j).1 = .ok c ↔ SaysOutConsumption j c := by
  unfold OutputConsumption.fromJson SaysOutConsumption
  cases hp with
  | obj o hk ho =>
    simp only [array_bind, createItem_bind, kwargs_bind, strOr_bind, item_bind, lift_bind, overList_bind, overItems_bind, setItem_bind, asNum_ok,
      PyM.pure_run, Dict.get?_set, String.reduceEq, if_false, if_true, Except.ok.injEq, Json.obj.injEq, keys_set_iff]
    constructor
    · rintro ⟨h3, h4, v, h1, s, h5, rfl⟩
      exact ⟨o, rfl, only_iff.mpr h3, (at_array_iff hk).mpr h1, (textOr_iff hk).mpr h5⟩
    · rintro ⟨o', rfl, h1, h2, h4⟩
      have h2 := (at_array_iff hk).mp h2
      obtain ⟨x, h2, h3⟩ := h2
      exact ⟨only_iff.mp h1, by simp [key_of_get? h2], _, ⟨x, h2, h3⟩, _, (textOr_iff hk).mp h4, rfl⟩
  | _ =>
    constructor
    · intro hh
      exact absurd hh (kwargs_bind_not (by simp))
    · rintro ⟨o, ho, _⟩
      cases ho

theorem outProduction_says {j : Json} (hp : Plain j) {c : OutputProduction} :
    (OutputProduction.fromJson j).1 = .ok c ↔ SaysOutProduction j c := by
  unfold OutputProduction.fromJson SaysOutProduction
  cases hp with
  | obj o hk ho =>
    simp only [array_bind, createItem_bind, kwargs_bind, strOr_bind, item_bind, lift_bind, overList_bind, overItems_bind, setItem_bind, asNum_ok,
      PyM.pure_run, Dict.get?_set, String.reduceEq, if_false, if_true, Except.ok.injEq, Json.obj.injEq, keys_set_iff]
    constructor
    · rintro ⟨h3, h4, v, h1, s, h5, rfl⟩
      exact ⟨o, rfl, only_iff.mpr h3, (at_array_iff hk).mpr h1, (textOr_iff hk).mpr h5⟩
    · rintro ⟨o', rfl, h1, h2, h4⟩
      have h2 := (at_array_iff hk).mp h2
      obtain ⟨x, h2, h3⟩ := h2
      exact ⟨only_iff.mp h1, by simp [key_of_get? h2], _, ⟨x, h2, h3⟩, _, (textOr_iff hk).mp h4, rfl⟩
  | _ =>
    constructor
    · intro hh
      exact absurd hh (kwargs_bind_not (by simp))
    · rintro ⟨o, ho, _⟩
      cases ho

theorem outStorage_says {j : Json} (hp : Plain j) {c : OutputStorage} :
    (OutputStorage.fromJson j).1 = .ok c ↔ SaysOutStorage j c := by
  unfold OutputStorage.fromJson SaysOutStorage
  cases hp with
  | obj o hk ho =>
    simp only [array_bind, createItem_bind, kwargs_bind, strOr_bind, item_bind, lift_bind, overList_bind, overItems_bind, setItem_bind, asNum_ok,
      PyM.pure_run, Dict.get?_set, String.reduceEq, if_false, if_true, Except.ok.injEq, Json.obj.injEq, keys_set_iff]
    constructor
    · rintro ⟨h3, h4, s, h5, v1, h6, v2, h7, v3, h8, rfl⟩
      refine ⟨o, rfl, only_iff.mpr h3, (at_text_iff hk).mpr ?_, (at_array_iff hk).mpr h6, (at_array_iff hk).mpr h7,
        (at_array_iff hk).mpr h8⟩
      rcases h5 with h5 | ⟨h5, _⟩
      · exact h5
      · exact absurd (h4 "name" (by simp)) ((Dict.get?_eq_none_iff _ _).mp h5)
    · rintro ⟨o', rfl, h1, h2, h3, h4, h5⟩
      have h2 := (at_text_iff hk).mp h2
      obtain ⟨x1, h3, h3'⟩ := (at_array_iff hk).mp h3
      obtain ⟨x2, h4, h4'⟩ := (at_array_iff hk).mp h4
      obtain ⟨x3, h5, h5'⟩ := (at_array_iff hk).mp h5
      exact ⟨only_iff.mp h1, by simp [key_of_get? h2, key_of_get? h3, key_of_get? h4, key_of_get? h5], _, .inl h2, _,
        ⟨_, h3, h3'⟩, _, ⟨_, h4, h4'⟩, _, ⟨_, h5, h5'⟩, rfl⟩
  | _ =>
    constructor
    · intro hh
      exact absurd hh (kwargs_bind_not (by simp))
    · rintro ⟨o, ho, _⟩
      cases ho

theorem outLink_says {j : Json} (hp : Plain j) {c : OutputLink} :
    (OutputLink.fromJson j).1 = .ok c ↔ SaysOutLink j c := by
  unfold OutputLink.fromJson SaysOutLink
  cases hp with
  | obj o hk ho =>
    simp only [array_bind, createItem_bind, kwargs_bind, strOr_bind, item_bind, lift_bind, overList_bind, overItems_bind, setItem_bind, asNum_ok,
      PyM.pure_run, Dict.get?_set, String.reduceEq, if_false, if_true, Except.ok.injEq, Json.obj.injEq, keys_set_iff]
    constructor
    · rintro ⟨h3, h4, s, h5, v1, h6, rfl⟩
      refine ⟨o, rfl, only_iff.mpr h3, (at_text_iff hk).mpr ?_, (at_array_iff hk).mpr h6⟩
      rcases h5 with h5 | ⟨h5, _⟩
      · exact h5
      · exact absurd (h4 "dest" (by simp)) ((Dict.get?_eq_none_iff _ _).mp h5)
    · rintro ⟨o', rfl, h1, h2, h3⟩
      have h2 := (at_text_iff hk).mp h2
      obtain ⟨x1, h3, h3'⟩ := (at_array_iff hk).mp h3
      exact ⟨only_iff.mp h1, by simp [key_of_get? h2, key_of_get? h3], _, .inl h2, _, ⟨_, h3, h3'⟩, rfl⟩
  | _ =>
    constructor
    · intro hh
      exact absurd hh (kwargs_bind_not (by simp))
    · rintro ⟨o, ho, _⟩
      cases ho

theorem get_items {l : List (String × Json)} {bs : List (String × Json)} :
    List.Forall₂ (fun x y => x.1 = y.1 ∧ ((PyM.get : PyM Json Json) x.2).1 = .ok y.2) l bs ↔ bs = l := by
  constructor
  · intro h
    induction h with
    | nil => rfl
    | @cons a b _ _ hab _ ih =>
      obtain ⟨a1, a2⟩ := a
      obtain ⟨b1, b2⟩ := b
      simp only [PyM.get, Except.ok.injEq] at hab
      rw [hab.1, hab.2, ih]
  · rintro rfl
    induction bs with
    | nil => exact .nil
    | cons b bs ih => exact .cons ⟨rfl, rfl⟩ ih

theorem mapM_ok_all {α β : Type} {f : α → Except PyErr β} {l : List α} {d : List β} :
    l.mapM f = .ok d ↔ List.Forall₂ (fun p q => f p = .ok q) l d := by
  induction l generalizing d with
  | nil =>
    rw [List.mapM_nil]
    show (Except.ok [] : Except PyErr _) = .ok d ↔ _
    simp [eq_comm]
  | cons p l ih =>
    rw [List.mapM_cons]
    cases h : f p with
    | error e =>
      simp only [bind, Except.bind, reduceCtorEq, false_iff]
      intro hh
      cases hh with
      | cons a _ => rw [h] at a; cases a
    | ok a =>
      simp only [bind, Except.bind]
      cases h2 : l.mapM f with
      | error e =>
        simp only [reduceCtorEq, false_iff]
        intro hh
        cases hh with
        | cons _ a => rw [← ih, h2] at a; cases a
      | ok d' =>
        simp only [pure, Except.pure, Except.ok.injEq]
        have h3 := ih.mp h2
        constructor
        · rintro rfl
          exact .cons h h3
        · intro hh
          cases hh with
          | cons a c =>
            rw [← ih, h2] at c
            rw [h] at a
            cases a
            cases c
            rfl

theorem mapM_arrays {l : List (List String × Json)} {d : List (List String × NdArray)} :
    (l.mapM fun p => p.2.toNd.map fun a => (p.1, a)) = .ok d ↔
      List.Forall₂ (fun p q => p.1 = q.1 ∧ p.2.toNd = .ok q.2) l d := by
  rw [mapM_ok_all]
  have key : ∀ (p : List String × Json) (q : List String × NdArray),
      (p.2.toNd.map fun a => (p.1, a)) = .ok q ↔ p.1 = q.1 ∧ p.2.toNd = .ok q.2 := by
    intro p q
    obtain ⟨q1, q2⟩ := q
    cases p.2.toNd <;> simp [Except.map]
  simp only [key]

theorem outConverter_says {j : Json} (hp : Plain j) {c : OutputConverter} :
    (OutputConverter.fromJson j).1 = .ok c ↔ SaysOutConverter j c := by
  unfold OutputConverter.fromJson SaysOutConverter
  cases hp with
  | obj o hk ho =>
    have key : ∀ l, Dict.get? o "flow_src" = some (.obj l) → ((l.map fun p => (splitKey p.1, p.2)).map Prod.fst).Nodup := by
      intro l hl
      have := plain_of_get? ho hl
      cases this with
      | obj _ h h' =>
        have := splitKey_nodup h
        rwa [List.map_map] at this ⊢
    simp only [overSplitItems_bind (not_tobj ho), array_bind, get_items, createItem_bind, kwargs_bind, strOr_bind, item_bind, lift_bind, overList_bind, overItems_bind, setItem_bind, asNum_ok,
      PyM.pure_run, Dict.get?_set, String.reduceEq, if_false, if_true, Except.ok.injEq, Json.obj.injEq, keys_set_iff]
    constructor
    · rintro ⟨l, bs, ⟨h1, rfl⟩, h3, h4, s, h5, d, h6, a, h7, rfl⟩
      refine ⟨o, rfl, only_iff.mpr fun k hk' => h3 k (by tauto), (at_text_iff hk).mpr ?_, (at_array_iff hk).mpr h7,
        (at_iff hk).mpr ⟨_, h1, bs, rfl, ?_⟩⟩
      · have hn : "name" ∈ Dict.keys o := by simpa using h4 "name" (by simp)
        rcases h5 with h5 | ⟨h5, _⟩
        · exact h5
        · exact absurd hn ((Dict.get?_eq_none_iff _ _).mp h5)
      · rw [Dict.ofList_of_nodup (key _ h1), mapM_arrays, List.forall₂_map_left_iff] at h6
        exact h6.imp fun p q h => ⟨(parts_iff _ _).mpr h.1, (isArray_iff _ _).mpr h.2⟩
    · rintro ⟨o', rfl, h1, h2, h3, h4⟩
      have h2 := (at_text_iff hk).mp h2
      obtain ⟨x1, h3, h3'⟩ := (at_array_iff hk).mp h3
      obtain ⟨_, h4, l, rfl, h5⟩ := (at_iff hk).mp h4
      refine ⟨l, l, ⟨h4, rfl⟩, ?_, ?_, _, .inl h2, _, ?_, _, ⟨_, h3, h3'⟩, rfl⟩
      · have := only_iff.mp h1
        intro k hk'
        by_cases hko : k ∈ Dict.keys o
        · exact this k hko
        · simp only [hko, or_false] at hk'
          simp
          tauto
      · simp [key_of_get? h2, key_of_get? h3]
      · rw [Dict.ofList_of_nodup (key _ h4), mapM_arrays, List.forall₂_map_left_iff]
        exact h5.imp fun p q h => ⟨(parts_iff _ _).mp h.1, (isArray_iff _ _).mp h.2⟩
  | _ =>
    constructor
    · intro hh
      exact absurd hh (overSplitItems_bind_not (by simp))
    · rintro ⟨o, ho, _⟩
      cases ho

theorem outNode_says {j : Json} (hp : Plain j) {c : OutputNode} :
    (OutputNode.fromJson j).1 = .ok c ↔ SaysOutNode j c := by
  unfold OutputNode.fromJson SaysOutNode
  cases hp with
  | obj o hk ho =>
    simp only [createItem_bind, kwargs_bind, strOr_bind, item_bind, lift_bind, overList_bind, overItems_bind, setItem_bind, asNum_ok,
      PyM.pure_run, Dict.get?_set, String.reduceEq, if_false, if_true, Except.ok.injEq, Json.obj.injEq, keys_set_iff]
    constructor
    · rintro ⟨l1, b1, h1, l2, b2, h2, l3, b3, h3, l4, b4, h4, h6, h7, rfl⟩
      refine ⟨o, rfl, only_iff.mpr fun k hk' => h6 k (by tauto),
        (elements_iff hk ho fun x hx a => outConsumption_says hx).mpr ⟨_, h1⟩,
        (elements_iff hk ho fun x hx a => outProduction_says hx).mpr ⟨_, h2⟩,
        (elements_iff hk ho fun x hx a => outStorage_says hx).mpr ⟨_, h3⟩,
        (elements_iff hk ho fun x hx a => outLink_says hx).mpr ⟨_, h4⟩⟩
    · rintro ⟨o', rfl, h0, h1, h2, h3, h4⟩
      obtain ⟨l1, h1⟩ := (elements_iff hk ho fun x hx a => outConsumption_says hx).mp h1
      obtain ⟨l2, h2⟩ := (elements_iff hk ho fun x hx a => outProduction_says hx).mp h2
      obtain ⟨l3, h3⟩ := (elements_iff hk ho fun x hx a => outStorage_says hx).mp h3
      obtain ⟨l4, h4⟩ := (elements_iff hk ho fun x hx a => outLink_says hx).mp h4
      refine ⟨_, _, h1, _, _, h2, _, _, h3, _, _, h4, ?_, by simp, rfl⟩
      have := only_iff.mp h0
      intro k hk'
      by_cases hko : k ∈ Dict.keys o
      · exact this k hko
      · simp only [hko, or_false] at hk'
        simp
        tauto
  | _ =>
    constructor
    · intro hh
      exact absurd hh (overList_bind_not (by simp))
    · rintro ⟨o, ho, _⟩
      cases ho

theorem outNetwork_says {j : Json} (hp : Plain j) {c : OutputNetwork} :
    (OutputNetwork.fromJson j).1 = .ok c ↔ SaysOutNetwork j c := by
  unfold OutputNetwork.fromJson SaysOutNetwork
  cases hp with
  | obj o hk ho =>
    simp only [createItem_bind, kwargs_bind, strOr_bind, item_bind, lift_bind, overList_bind, overItems_bind, setItem_bind, asNum_ok,
      PyM.pure_run, Dict.get?_set, String.reduceEq, if_false, if_true, Except.ok.injEq, Json.obj.injEq, keys_set_iff]
    constructor
    · rintro ⟨l1, b1, h1, h6, h7, rfl⟩
      exact ⟨o, rfl, only_iff.mpr fun k hk' => h6 k (by tauto),
        (named_iff hk ho fun x hx a => outNode_says hx).mpr ⟨_, _, h1, rfl⟩⟩
    · rintro ⟨o', rfl, h0, h1⟩
      obtain ⟨l1, b1, h1, h2⟩ := (named_iff hk ho fun x hx a => outNode_says hx).mp h1
      refine ⟨_, _, h1, ?_, by simp, by rw [h2]⟩
      have := only_iff.mp h0
      intro k hk'
      by_cases hko : k ∈ Dict.keys o
      · exact this k hko
      · simp only [hko, or_false] at hk'
        simp
        tauto
  | _ =>
    constructor
    · intro hh
      exact absurd hh (overItems_bind_not (by simp))
    · rintro ⟨o, ho, _⟩
      cases ho

theorem asNums_ok {x : Json} {l : List ℚ} : x.asNums = .ok l ↔ x = .arr (l.map .num) := by
  constructor
  · intro h
    cases x with
    | arr js =>
      simp only [Json.asNums] at h
      congr
      induction js generalizing l with
      | nil =>
        rw [List.mapM_nil] at h
        cases h
        rfl
      | cons y ys ih =>
        rw [List.mapM_cons] at h
        cases hy : y.asNum with
        | error e => rw [hy] at h; cases h
        | ok q =>
          cases hys : ys.mapM Json.asNum with
          | error e => rw [hy, hys] at h; cases h
          | ok qs =>
            rw [hy, hys] at h
            cases h
            rw [List.map_cons, ← ih hys, asNum_ok.mp hy]
    | _ => simp [Json.asNums] at h
  · rintro rfl
    exact Json.asNums_map l

theorem numsOr_bind {γ : Type} {b : γ} {o : List (String × Json)} (hk : (o.map Prod.fst).Nodup) (ho : ∀ p ∈ o, Plain p.2)
    {k : String} {m : List ℚ → PyM Json γ} :
    ((Json.numsOr k >>= m) (.obj o)).1 = .ok b ↔ ∃ l, TimesOr o k l ∧ (m l (.obj o)).1 = .ok b := by
  rw [PyM.bind_run]
  simp only [TimesOr, at_iff hk, mem_iff_get? hk, Json.numsOr]
  cases h : Dict.get? o k with
  | none => simp
  | some x =>
    have hp := plain_of_get? ho h
    simp only [Option.some.injEq, exists_eq_left', ← falsy_iff hp]
    cases hf : x.falsy with
    | true =>
      simp only [if_true]
      constructor
      · intro hm
        exact ⟨[], .inr ⟨.inr trivial, rfl⟩, hm⟩
      · rintro ⟨l, h1 | h1, hm⟩
        · subst h1
          have : l = [] := by simpa [Json.falsy] using hf
          subst this
          exact hm
        · rw [h1.2] at hm
          exact hm
    | false =>
      have hn : False → False := id
      have hn' : ¬ ∀ y, ¬ x = y := fun hh => hh x rfl
      simp only [Bool.false_eq_true, if_false]
      cases hx : x.asNums with
      | error e =>
        simp only [reduceCtorEq, false_iff]
        rintro ⟨l, h1 | h1, hm⟩
        · rw [asNums_ok.mpr h1] at hx
          cases hx
        · exact (h1.1.elim hn' hn).elim
      | ok l =>
        constructor
        · intro hm
          exact ⟨l, .inl (asNums_ok.mp hx), hm⟩
        · rintro ⟨l', h1 | h1, hm⟩
          · rw [asNums_ok.mpr h1] at hx
            cases hx
            exact hm
          · exact (h1.1.elim hn' hn).elim

theorem numOr_bind {γ : Type} {b : γ} {o : List (String × Json)} (hk : (o.map Prod.fst).Nodup)
    {k : String} {m : ℚ → PyM Json γ} :
    ((Json.numOr k >>= m) (.obj o)).1 = .ok b ↔ ∃ q, TimeOr o k q ∧ (m q (.obj o)).1 = .ok b := by
  rw [PyM.bind_run]
  simp only [TimeOr, mem_iff_get? hk, Json.numOr]
  cases h : Dict.get? o k with
  | none => simp
  | some x =>
    have hn' : ¬ ∀ y, ¬ some x = some y := fun hh => hh x rfl
    simp only [Option.some.injEq, hn', false_and, or_false] at hn' ⊢
    simp only [hn', false_and, or_false]
    cases hx : x.asNum with
    | error e =>
      simp only [reduceCtorEq, false_iff]
      rintro ⟨q, rfl, _⟩
      simp [Json.asNum] at hx
    | ok q =>
      have := asNum_ok.mp hx
      subst this
      simp

theorem benchmark_says {j : Json} (hp : Plain j) {c : Benchmark} :
    (Benchmark.fromJson j).1 = .ok c ↔ SaysBenchmark j c := by
  unfold Benchmark.fromJson SaysBenchmark
  cases hp with
  | obj o hk ho =>
    simp only [numsOr_bind hk ho, numOr_bind hk, createItem_bind, kwargs_bind, strOr_bind, item_bind, lift_bind, overList_bind, overItems_bind, setItem_bind, asNum_ok,
      PyM.pure_run, Dict.get?_set, String.reduceEq, if_false, if_true, Except.ok.injEq, Json.obj.injEq, keys_set_iff]
    constructor
    · rintro ⟨h1, h2, l1, h3, l2, h4, q1, h5, q2, h6, rfl⟩
      exact ⟨o, rfl, only_iff.mpr h1, h3, h4, h5, h6⟩
    · rintro ⟨o', rfl, h1, h3, h4, h5, h6⟩
      exact ⟨only_iff.mp h1, by simp, _, h3, _, h4, _, h5, _, h6, rfl⟩
  | _ =>
    constructor
    · intro hh
      exact absurd hh (kwargs_bind_not (by simp))
    · rintro ⟨o, ho, _⟩
      cases ho

theorem onItem_bind {β γ : Type} {b : γ} {o : List (String × Json)} {k : String} {f : PyM Json β} {m : β → PyM Json γ} :
    ((Result.onItem k f >>= m) (.obj o)).1 = .ok b ↔
      ∃ x a, (Dict.get? o k = some x ∧ (f x).1 = .ok a) ∧ (m a (.obj (Dict.set o k (f x).2))).1 = .ok b := by
  rw [PyM.bind_run]
  unfold Result.onItem
  cases h : Dict.get? o k with
  | none => simp [Json.item, Dict.getE, h]
  | some x =>
    cases hx : (f x).1 with
    | error e => simp [Json.item, Dict.getE, h, hx]
    | ok v => simp [Json.item, Dict.getE, h, hx, Json.setItem]

theorem result_says {j : Json} (hp : Plain j) {r : Result} : (Result.fromJson j).1 = .ok r ↔ SaysResult j r := by
  unfold Result.fromJson SaysResult
  cases hp with
  | obj o hk ho =>
    simp only [onItem_bind, createItem_bind, kwargs_bind, strOr_bind, item_bind, lift_bind, overList_bind, overItems_bind, setItem_bind, asNum_ok,
      PyM.pure_run, Dict.get?_set, String.reduceEq, if_false, if_true, Except.ok.injEq, Json.obj.injEq, keys_set_iff]
    constructor
    · rintro ⟨l1, b1, h1, l2, b2, h2, x, a, ⟨h3, h4⟩, rfl⟩
      exact ⟨o, rfl, (named_iff hk ho fun x hx a => outNetwork_says hx).mpr ⟨_, _, h1, rfl⟩,
        (named_iff hk ho fun x hx a => outConverter_says hx).mpr ⟨_, _, h2, rfl⟩,
        (at_iff hk).mpr ⟨_, h3, (benchmark_says (plain_of_get? ho h3)).mp h4⟩⟩
    · rintro ⟨o', rfl, h1, h2, h3⟩
      obtain ⟨l1, b1, h1, e1⟩ := (named_iff hk ho fun x hx a => outNetwork_says hx).mp h1
      obtain ⟨l2, b2, h2, e2⟩ := (named_iff hk ho fun x hx a => outConverter_says hx).mp h2
      obtain ⟨x, h3, h4⟩ := (at_iff hk).mp h3
      exact ⟨_, _, h1, _, _, h2, x, _, ⟨h3, (benchmark_says (plain_of_get? ho h3)).mpr h4⟩, by rw [e1, e2]⟩
  | _ =>
    constructor
    · intro hh
      exact absurd hh (overItems_bind_not (by simp))
    · rintro ⟨o, ho, _⟩
      cases ho

end Hadar
