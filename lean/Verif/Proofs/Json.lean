import Verif.Spec.Json
import Verif.Proofs.Fluent

/-! # Lemmas on serialisation -/

set_option linter.unusedSimpArgs false

namespace Hadar

open Spec

/-! ### Separator -/

theorem splitSepAux_noSep (l : List Char) (acc : List Char) (h : ¬ [':', ':'] <:+: l) :
    splitSepAux l acc = [acc.reverse ++ l] := by
  induction l generalizing acc with
  | nil => simp [splitSepAux]
  | cons c l ih =>
    cases l with
    | nil => simp [splitSepAux]
    | cons c' r =>
      have h1 : ¬ (c = ':' ∧ c' = ':') := by
        rintro ⟨rfl, rfl⟩
        exact h ⟨[], r, by simp⟩
      have h2 : ¬ [':', ':'] <:+: (c' :: r) := fun hh => h (hh.trans (List.infix_cons (List.infix_refl _)))
      rw [splitSepAux, if_neg h1, ih _ h2]
      simp

theorem splitSepAux_sep (a b : List Char) (acc : List Char) (h : ¬ [':', ':'] <:+: a)
    (he : ¬ [':'] <:+ a) :
    splitSepAux (a ++ ':' :: ':' :: b) acc = (acc.reverse ++ a) :: splitSepAux b [] := by
  induction a generalizing acc with
  | nil => simp [splitSepAux]
  | cons c a ih =>
    cases a with
    | nil =>
      have h1 : ¬ (c = ':' ∧ ':' = ':') := by
        rintro ⟨rfl, _⟩
        exact he (List.suffix_refl _)
      simp only [List.cons_append, List.nil_append]
      rw [splitSepAux, if_neg h1]
      simp [splitSepAux]
    | cons c' r =>
      have h1 : ¬ (c = ':' ∧ c' = ':') := by
        rintro ⟨rfl, rfl⟩
        exact h ⟨[], r, by simp⟩
      have h2 : ¬ [':', ':'] <:+: (c' :: r) := fun hh => h (hh.trans (List.infix_cons (List.infix_refl _)))
      have h3 : ¬ [':'] <:+ (c' :: r) := fun hh => he (hh.trans (List.suffix_cons _ _))
      simp only [List.cons_append]
      rw [splitSepAux, if_neg h1]
      have := ih (c :: acc) h2 h3
      simp only [List.cons_append] at this
      rw [this]; simp

theorem infix_snoc {l : List Char} {c : Char} (h : [':', ':'] <:+: l ++ [c]) :
    [':', ':'] <:+: l ∨ (c = ':' ∧ [':'] <:+ l) := by
  obtain ⟨s, t, e⟩ := h
  rcases List.eq_nil_or_concat t with rfl | ⟨t', x, rfl⟩
  · right
    have : (s ++ [':']) ++ [':'] = l ++ [c] := by simpa using e
    have := List.append_inj' this rfl
    exact ⟨by simpa using this.2.symm, ⟨s, this.1⟩⟩
  · left
    have : (s ++ [':', ':'] ++ t') ++ [x] = l ++ [c] := by simpa using e
    have := List.append_inj' this rfl
    exact ⟨s, t', this.1⟩

theorem noSep_snoc {acc : List Char} {c : Char} {r : List Char}
    (h1 : ¬ [':', ':'] <:+: acc.reverse) (h2 : [':'] <:+ acc.reverse → ¬ [':'] <+: c :: r) :
    ¬ [':', ':'] <:+: acc.reverse ++ [c] := by
  intro h3
  rcases infix_snoc h3 with h4 | ⟨rfl, h4⟩
  · exact h1 h4
  · exact h2 h4 ⟨r, rfl⟩

/-- the parts hold no separator, and all but the last do not end with a colon -/
theorem splitSepAux_parts : ∀ (l acc : List Char),
    ¬ [':', ':'] <:+: acc.reverse → ([':'] <:+ acc.reverse → ¬ [':'] <+: l) →
    (∀ p ∈ splitSepAux l acc, ¬ [':', ':'] <:+: p) ∧
      (∀ p ∈ (splitSepAux l acc).dropLast, ¬ [':'] <:+ p) ∧ splitSepAux l acc ≠ []
  | [], acc, h1, h2 => by simp [splitSepAux, h1]
  | [c], acc, h1, h2 => by
    simp only [splitSepAux, List.reverse_cons, List.mem_singleton, forall_eq, List.dropLast_singleton]
    exact ⟨noSep_snoc h1 h2, by simp, by simp⟩
  | c :: c' :: r, acc, h1, h2 => by
    rw [splitSepAux]
    by_cases hc : c = ':' ∧ c' = ':'
    · rw [if_pos hc]
      obtain ⟨i1, i2, i3⟩ := splitSepAux_parts r [] (by simp) (by simp)
      refine ⟨?_, ?_, by simp⟩
      · intro p hp
        rcases List.mem_cons.mp hp with rfl | hp
        · exact h1
        · exact i1 p hp
      · intro p hp
        rw [List.dropLast_cons_of_ne_nil i3] at hp
        rcases List.mem_cons.mp hp with rfl | hp
        · intro hh
          exact h2 hh ⟨c' :: r, by simp [hc.1]⟩
        · exact i2 p hp
    · rw [if_neg hc]
      refine splitSepAux_parts (c' :: r) (c :: acc) ?_ ?_
      · simpa using noSep_snoc h1 h2
      · rintro ⟨s, hs⟩ ⟨t, ht⟩
        simp only [List.reverse_cons] at hs
        have := (List.append_inj' hs rfl).2
        simp at this ht
        exact hc ⟨this.symm, ht.1.symm⟩

theorem joinKey_pair (a b : String) :
    (joinKey [a, b]).toList = a.toList ++ ':' :: ':' :: b.toList := by
  simp [joinKey, List.intercalate, List.intersperse, String.toList_ofList]

theorem splitKey_joinKey {a b : String} (h : CleanPair a b) : splitKey (joinKey [a, b]) = [a, b] := by
  unfold splitKey
  rw [joinKey_pair, splitSepAux_sep _ _ _ h.1 h.2.1, splitSepAux_noSep _ _ h.2.2]
  simp

theorem cleanPair_of_split {a b : String} (h : splitKey (joinKey [a, b]) = [a, b]) :
    CleanPair a b := by
  unfold splitKey at h
  have hl : splitSepAux (joinKey [a, b]).toList [] = [a.toList, b.toList] := by
    have := congrArg (List.map String.toList) h
    simpa [List.map_map, Function.comp_def] using this
  obtain ⟨h1, h2, _⟩ := splitSepAux_parts (joinKey [a, b]).toList [] (by simp) (by simp)
  rw [hl] at h1 h2
  exact ⟨h1 _ (by simp), h2 _ (by simp), h1 _ (by simp)⟩

/-! ### Arrays -/

theorem mem_chunks_length {α : Type} {n k : ℕ} {l r : List α} (hl : l.length = n * k)
    (hr : r ∈ chunks n k l) : r.length = k := by
  induction n generalizing l with
  | zero => simp [chunks] at hr
  | succ n ih =>
    have hk : k ≤ l.length := by rw [hl]; exact Nat.le_mul_of_pos_left k (by omega)
    simp only [chunks, List.mem_cons] at hr
    rcases hr with rfl | hr
    · simp [hk]
    · refine ih ?_ hr
      rw [List.length_drop, hl]
      have : (n + 1) * k = n * k + k := by ring
      omega

theorem length_chunks {α : Type} (n k : ℕ) (l : List α) : (chunks n k l).length = n := by
  induction n generalizing l with
  | zero => rfl
  | succ n ih => simp [chunks, ih]

theorem flatten_chunks {α : Type} {n k : ℕ} {l : List α} (hl : l.length = n * k) :
    (chunks n k l).flatten = l := by
  induction n generalizing l with
  | zero => simp at hl; simp [chunks, hl]
  | succ n ih =>
    simp only [chunks, List.flatten_cons]
    rw [ih, List.take_append_drop]
    rw [List.length_drop, hl]
    have : (n + 1) * k = n * k + k := by ring
    omega

theorem Json.nd?_ofNdAux : ∀ (sh : List ℕ) (l : List ℚ), l.length = sh.prod → 0 ∉ sh.dropLast →
    Json.nd? (Json.ofNdAux sh l) = some (sh, l) := by
  intro sh
  induction sh with
  | nil =>
    intro l hl _
    match l, hl with
    | [q], _ => simp [Json.ofNdAux, Json.nd?]
  | cons n sh ih =>
    intro l hl hz
    have hz' : 0 ∉ sh.dropLast := by
      cases sh with
      | nil => simp
      | cons m sh => rw [List.dropLast_cons_of_ne_nil (by simp)] at hz; exact fun h => hz (List.mem_cons_of_mem _ h)
    have hl' : l.length = n * sh.prod := by simpa using hl
    have hall : Json.ndAll? ((chunks n sh.prod l).map (Json.ofNdAux sh)) =
        some ((chunks n sh.prod l).map (fun r => (sh, r))) := by
      apply Json.ndAll?_map
      intro r hr
      exact ih r (mem_chunks_length hl' hr) hz'
    rw [Json.ofNdAux, Json.nd?, hall]
    cases n with
    | zero =>
      have hsh : sh = [] := by
        cases sh with
        | nil => rfl
        | cons m sh => rw [List.dropLast_cons_of_ne_nil (by simp)] at hz; simp at hz
      subst hsh
      simp at hl'
      simp [chunks, Json.stackRows, hl']
    | succ n =>
      simp only
      rw [Json.stackRows_of (sh := sh)]
      · simp [List.map_map, Function.comp_def, length_chunks, flatten_chunks hl']
      · intro h
        have := congrArg List.length h
        simp [length_chunks] at this
      · intro r hr
        obtain ⟨x, _, rfl⟩ := List.mem_map.mp hr
        rfl

theorem Json.toNd_ofNd {a : NdArray} (h : Dense a) : Json.toNd (Json.ofNd a) = .ok a := by
  unfold Json.toNd Json.ofNd
  rw [Json.nd?_ofNdAux _ _ a.wf h]
  simp [a.wf]

/-! ### Numerical values -/

/-- the value survives its own serialisation -/
def NumVal.Canon (h n : ℕ) (v : NumVal) : Prop := (Factory.mk h n).create (.json v.toJson) = .ok v

theorem Factory.canon_of_ofArray {h n : ℕ} {a : NdArray} {v : NumVal} (hn : 0 < n)
    (hv : (Factory.mk h n).ofArray a = .ok v) : v.Canon h n := by
  have key : ∀ (n' : ℕ) (sh : List ℕ), a.shape = n' :: sh → Dense a →
      (Factory.mk h n).ofJson (Json.ofNd a) = .ok v := by
    intro n' sh hs hd
    have : Json.ofNd a = .arr ((chunks n' sh.prod a.data).map (Json.ofNdAux sh)) := by
      simp [Json.ofNd, hs, Json.ofNdAux]
    have ht := Json.toNd_ofNd hd
    rw [this] at ht ⊢
    simp only [Factory.ofJson]
    rw [ht]; exact hv
  unfold NumVal.Canon
  have hv' := hv
  unfold Factory.ofArray at hv
  split at hv
  · rename_i hs
    cases hv
    simpa [NumVal.toJson, Factory.create, Dict.get?] using
      key _ _ hs (by simp [Dense, hs])
  · split at hv
    · rename_i hs
      cases hv
      simpa [NumVal.toJson, Factory.create, Dict.get?] using
        key _ _ hs (by simp only [Dense, hs]; simp; omega)
    · split at hv
      · rename_i hs
        cases hv
        simpa [NumVal.toJson, Factory.create, Dict.get?] using
          key _ _ hs (by simp only [Dense, hs]; simp; omega)
      · split at hv <;> cases hv

theorem Factory.canon_of_ofJson {h n : ℕ} {j : Json} {v : NumVal} (hn : 0 < n)
    (hv : (Factory.mk h n).ofJson j = .ok v) : v.Canon h n := by
  cases j with
  | num q =>
    simp [Factory.ofJson] at hv; subst hv
    simp [NumVal.Canon, NumVal.toJson, Factory.create, Dict.get?, Factory.ofJson]
  | arr l =>
    simp only [Factory.ofJson] at hv
    cases ha : Json.toNd (.arr l) with
    | error e => rw [ha] at hv; cases hv
    | ok a => rw [ha] at hv; exact Factory.canon_of_ofArray hn hv
  | null | str | obj | tobj | native => cases hv

theorem Factory.canon_of_create {h n : ℕ} {r : Raw} {v : NumVal} (hn : 0 < n)
    (hr : ∀ w, r ≠ .val w) (hv : (Factory.mk h n).create r = .ok v) : v.Canon h n := by
  cases r with
  | val w => exact absurd rfl (hr w)
  | num q =>
    simp [Factory.create] at hv; subst hv
    simp [NumVal.Canon, NumVal.toJson, Factory.create, Dict.get?, Factory.ofJson]
  | array a => exact Factory.canon_of_ofArray hn hv
  | json j =>
    cases j with
    | obj o =>
      simp only [Factory.create] at hv
      cases hg : Dict.get? o "value" with
      | none => rw [hg] at hv; cases hv
      | some j => rw [hg] at hv; exact Factory.canon_of_ofJson hn hv
    | null | num | str | arr | tobj | native =>
      exact Factory.canon_of_ofJson hn (by simpa only [Factory.create] using hv)
  | other => cases hv

/-! ### Decoders -/

theorem createItem_run {h n : ℕ} {k : String} {o : List (String × Json)} {v : NumVal}
    (hk : Dict.get? o k = some v.toJson) (hv : v.Canon h n) :
    createItem ⟨h, n⟩ k (.obj o) = (.ok v, .obj (Dict.set o k .native)) := by
  have hv : (Factory.mk h n).create (.json v.toJson) = .ok v := hv
  simp [createItem, Json.item, Dict.getE, hk, hv, Json.setItem]

theorem Consumption.roundtrip {h n : ℕ} {c : Consumption} (h1 : c.quantity.Canon h n)
    (h2 : c.cost.Canon h n) : (Consumption.fromJson ⟨h, n⟩ c.toJson).1 = .ok c := by
  unfold Consumption.fromJson Consumption.toJson
  rw [PyM.bind_run, createItem_run (by simp [Dict.get?]) h2]
  simp only [Dict.set]
  rw [PyM.bind_run, createItem_run (by simp [Dict.get?]) h1]
  simp [Json.kwargs, Dict.keys, Dict.set, Json.strOr, Json.asStr, Dict.get?]

theorem Production.roundtrip {h n : ℕ} {c : Production} (h1 : c.quantity.Canon h n)
    (h2 : c.cost.Canon h n) : (Production.fromJson ⟨h, n⟩ c.toJson).1 = .ok c := by
  unfold Production.fromJson Production.toJson
  rw [PyM.bind_run, createItem_run (by simp [Dict.get?]) h2]
  simp only [Dict.set]
  rw [PyM.bind_run, createItem_run (by simp [Dict.get?]) h1]
  simp [Json.kwargs, Dict.keys, Dict.set, Json.strOr, Json.asStr, Dict.get?]

theorem Link.roundtrip {h n : ℕ} {c : Link} (h1 : c.quantity.Canon h n)
    (h2 : c.cost.Canon h n) : (Link.fromJson ⟨h, n⟩ c.toJson).1 = .ok c := by
  unfold Link.fromJson Link.toJson
  rw [PyM.bind_run, createItem_run (by simp [Dict.get?]) h2]
  simp only [Dict.set]
  rw [PyM.bind_run, createItem_run (by simp [Dict.get?]) h1]
  simp [Json.kwargs, Dict.keys, Dict.set, Json.strOr, Json.asStr, Dict.get?]

theorem Storage.roundtrip {h n : ℕ} {c : Storage} (h1 : c.capacity.Canon h n)
    (h2 : c.flowIn.Canon h n) (h3 : c.flowOut.Canon h n) (h4 : c.cost.Canon h n)
    (h5 : c.eff.Canon h n) : (Storage.fromJson ⟨h, n⟩ c.toJson).1 = .ok c := by
  unfold Storage.fromJson Storage.toJson
  rw [PyM.bind_run, createItem_run (by simp [Dict.get?, Dict.set]) h4]
  dsimp only
  rw [PyM.bind_run, createItem_run (by simp [Dict.get?, Dict.set]) h1]
  dsimp only
  rw [PyM.bind_run, createItem_run (by simp [Dict.get?, Dict.set]) h2]
  dsimp only
  rw [PyM.bind_run, createItem_run (by simp [Dict.get?, Dict.set]) h3]
  dsimp only
  rw [PyM.bind_run, createItem_run (by simp [Dict.get?, Dict.set]) h5]
  simp [Json.kwargs, Dict.keys, Dict.set, Json.strOr, Json.asStr, Dict.get?, Json.item, Json.asNum,
    Dict.getE]

theorem Json.mapMut_map {α : Type} {f : PyM Json α} {g : α → Json} {l : List α}
    (h : ∀ x ∈ l, (f (g x)).1 = .ok x) : (Json.mapMut f (l.map g)).1 = .ok l := by
  induction l with
  | nil => rfl
  | cons x l ih =>
    have hx := h x (by simp)
    have ih := ih (fun y hy => h y (by simp [hy]))
    simp only [List.map_cons, Json.mapMut]
    rcases hf : f (g x) with ⟨r, j⟩
    rw [hf] at hx; simp only at hx; subst hx
    simp only
    rcases hm : Json.mapMut f (l.map g) with ⟨r', js⟩
    rw [hm] at ih; simp only at ih; subst ih
    rfl

theorem Json.mapItems_map {K α : Type} {f : PyM Json α} {g : α → Json} {l : List (K × α)}
    (h : ∀ x ∈ l, (f (g x.2)).1 = .ok x.2) :
    (Json.mapItems f (l.map fun p => (p.1, g p.2))).1 = .ok l := by
  induction l with
  | nil => rfl
  | cons x l ih =>
    have hx := h x (by simp)
    have ih := ih (fun y hy => h y (by simp [hy]))
    simp only [List.map_cons, Json.mapItems]
    rcases hf : f (g x.2) with ⟨r, j⟩
    rw [hf] at hx; simp only at hx; subst hx
    simp only
    generalize hm : Json.mapItems f (l.map fun p => (p.1, g p.2)) = res at ih ⊢
    obtain ⟨r', js⟩ := res
    simp only at ih; subst ih
    rfl

theorem Json.overList_run {α : Type} {f : PyM Json α} {g : α → Json} {l : List α} {k : String}
    {o : List (String × Json)} (hk : Dict.get? o k = some (.arr (l.map g)))
    (h : ∀ x ∈ l, (f (g x)).1 = .ok x) :
    Json.overList k f (.obj o) =
      (.ok l, .obj (Dict.set o k (.arr (Json.mapMut f (l.map g)).2))) := by
  simp [Json.overList, Json.item, Dict.getE, hk, Json.mapMut_map h, Json.setItem]

theorem Json.overItems_run {α : Type} {f : PyM Json α} {g : α → Json} {l : Dict String α}
    {k : String} {o : List (String × Json)}
    (hk : Dict.get? o k = some (.obj (l.map fun p => (p.1, g p.2))))
    (h : ∀ x ∈ l, (f (g x.2)).1 = .ok x.2) (hn : (l.map Prod.fst).Nodup) :
    Json.overItems k f (.obj o) =
      (.ok l, .obj (Dict.set o k (.obj (Json.mapItems f (l.map fun p => (p.1, g p.2))).2))) := by
  simp [Json.overItems, Json.item, Dict.getE, hk, Json.mapItems_map h, Json.setItem, Except.map,
    Dict.ofList_of_nodup hn]

/-- clean keys are not merged by joining -/
theorem joinKeys_nodup {α : Type} {l : Dict (List String) α} (hn : (l.map Prod.fst).Nodup)
    (hc : ∀ k ∈ l.map Prod.fst, ∃ g d, k = [g, d] ∧ CleanPair g d) :
    (l.map fun p => joinKey p.1).Nodup := by
  have : (l.map fun p => joinKey p.1) = (l.map Prod.fst).map joinKey := by simp
  rw [this]
  refine List.Nodup.map_on ?_ hn
  intro x hx y hy e
  obtain ⟨g, d, rfl, h1⟩ := hc x hx
  obtain ⟨g', d', rfl, h2⟩ := hc y hy
  rw [← splitKey_joinKey h1, e, splitKey_joinKey h2]

theorem Json.overSplitItems_run {α β : Type} {f : PyM Json α} {g : β → Json} {w : β → α}
    {l : Dict (List String) β}
    {k : String} {o : List (String × Json)}
    (hk : Dict.get? o k = some (.obj (Dict.ofList (l.map fun p => (joinKey p.1, g p.2)))))
    (h : ∀ x ∈ l, (f (g x.2)).1 = .ok (w x.2)) (hn : (l.map Prod.fst).Nodup)
    (hc : ∀ k ∈ l.map Prod.fst, ∃ g d, k = [g, d] ∧ CleanPair g d) :
    Json.overSplitItems k f (.obj o) = (.ok (l.map fun p => (p.1, w p.2)),
      .obj (Dict.set o k (.obj
        (Json.mapItems f (l.map fun p => (joinKey p.1, g p.2))).2))) := by
  have hj := joinKeys_nodup hn hc
  have e1 : Dict.ofList (l.map fun p => (joinKey p.1, g p.2)) =
      l.map fun p => (joinKey p.1, g p.2) := by
    apply Dict.ofList_of_nodup
    simpa [List.map_map, Function.comp_def] using hj
  have e2 : (Json.mapItems f (l.map fun p => (joinKey p.1, g p.2))).1 =
      .ok (l.map fun p => (joinKey p.1, w p.2)) := by
    clear hk hn hc hj e1
    induction l with
    | nil => rfl
    | cons x l ih =>
      have hx := h x (by simp)
      have ih := ih (fun y hy => h y (by simp [hy]))
      simp only [List.map_cons, Json.mapItems]
      rcases hf : f (g x.2) with ⟨r, j⟩
      rw [hf] at hx; simp only at hx; subst hx
      simp only
      generalize hm : Json.mapItems f (l.map fun p => (joinKey p.1, g p.2)) = res at ih ⊢
      obtain ⟨r', js⟩ := res
      simp only at ih; subst ih
      rfl
  have e3 : Dict.ofList (List.map (fun p => (splitKey p.1, p.2))
      (l.map fun p => (joinKey p.1, w p.2))) = l.map fun p => (p.1, w p.2) := by
    have : List.map (fun p => (splitKey p.1, p.2)) (l.map fun p => (joinKey p.1, w p.2)) =
        l.map fun p => (p.1, w p.2) := by
      rw [List.map_map]
      apply List.map_congr_left
      intro p hp
      obtain ⟨g, d, e, h1⟩ := hc p.1 (List.mem_map.mpr ⟨p, hp, rfl⟩)
      simp [e, splitKey_joinKey h1]
    rw [this]
    apply Dict.ofList_of_nodup
    simpa [List.map_map, Function.comp_def] using hn
  simp only [Json.overSplitItems, PyM.bind_run, Json.item, Dict.getE, hk, e1]
  rw [e2]
  simp only [Except.map]
  rw [e3]
  simp [Json.setItem]

theorem ConvField.create_toJson {h n : ℕ} {c : ConvField} (hc : ∀ v, c = .val v → v.Canon h n) :
    ∃ v, (Factory.mk h n).create (.json c.toJson) = .ok v ∧ filledField h n c = .val v := by
  cases c with
  | int0 => exact ⟨_, rfl, rfl⟩
  | val v => exact ⟨v, hc v rfl, rfl⟩

theorem createItem_run' {h n : ℕ} {k : String} {o : List (String × Json)} {v : NumVal} {j : Json}
    (hk : Dict.get? o k = some j) (hv : (Factory.mk h n).create (.json j) = .ok v) :
    createItem ⟨h, n⟩ k (.obj o) = (.ok v, .obj (Dict.set o k .native)) := by
  simp [createItem, Json.item, Dict.getE, hk, hv, Json.setItem]

theorem Converter.roundtrip {h n : ℕ} {c : Converter} (hc : ConvAll (NumVal.Canon h n) c)
    (hn : (c.srcRatios.map Prod.fst).Nodup)
    (hk : ∀ k ∈ c.srcRatios.map Prod.fst, ∃ g d, k = [g, d] ∧ CleanPair g d) :
    (Converter.fromJson ⟨h, n⟩ c.toJson).1 =
      .ok { c with cost := filledField h n c.cost, max := filledField h n c.max } := by
  obtain ⟨name, src, dn, dd, cost, max⟩ := c
  obtain ⟨h3, hcost, hmax⟩ := hc
  simp only at h3 hcost hmax hn hk
  obtain ⟨cv, h1, e1⟩ := ConvField.create_toJson hcost
  obtain ⟨mv, h2, e2⟩ := ConvField.create_toJson hmax
  unfold Converter.fromJson Converter.toJson
  rw [PyM.bind_run, createItem_run' (v := cv) (j := cost.toJson) (by simp [Dict.get?]) h1]
  simp only [Dict.set]
  rw [PyM.bind_run, createItem_run' (v := mv) (j := max.toJson) (by simp [Dict.get?]) h2]
  simp only [Dict.set, String.reduceEq, if_true, if_false]
  rw [PyM.bind_run, Json.overSplitItems_run (f := createValue ⟨h, n⟩) (l := src)
    (g := NumVal.toJson) (w := id) (by simp [Dict.get?]) (fun x hx => h3 x hx) hn hk]
  simp [Json.kwargs, Dict.keys, Dict.set, Json.strOr, Json.asStr, Dict.get?, Json.item,
    Dict.getE, Json.setItem, e1, e2]

theorem InputNode.roundtrip {h n : ℕ} {x : InputNode} (hx : NodeAll (NumVal.Canon h n) x) :
    (InputNode.fromJson ⟨h, n⟩ x.toJson).1 = .ok x := by
  unfold InputNode.fromJson InputNode.toJson
  rw [PyM.bind_run, Json.overList_run (l := x.consumptions) (g := Consumption.toJson)
    (by simp [Dict.get?]) (fun c hc => Consumption.roundtrip (hx.1 c hc).1 (hx.1 c hc).2)]
  simp only [Dict.set, PyM.bind_run, Json.setItem, String.reduceEq, if_true, if_false]
  rw [Json.overList_run (l := x.productions) (g := Production.toJson)
    (by simp [Dict.get?]) (fun c hc => Production.roundtrip (hx.2 c hc).1 (hx.2 c hc).2)]
  simp only [Dict.set, PyM.bind_run, Json.setItem, String.reduceEq, if_true, if_false]
  rw [Json.overList_run (l := x.storages) (g := Storage.toJson)
    (by simp [Dict.get?]) (fun c hc => Storage.roundtrip (hx.3 c hc).1 (hx.3 c hc).2.1
      (hx.3 c hc).2.2.1 (hx.3 c hc).2.2.2.1 (hx.3 c hc).2.2.2.2)]
  simp only [Dict.set, PyM.bind_run, Json.setItem, String.reduceEq, if_true, if_false]
  rw [Json.overList_run (l := x.links) (g := Link.toJson)
    (by simp [Dict.get?]) (fun c hc => Link.roundtrip (hx.4 c hc).1 (hx.4 c hc).2)]
  simp [Dict.set, PyM.bind_run, Json.setItem, Json.kwargs, Dict.keys]

theorem InputNetwork.roundtrip {h n : ℕ} {x : InputNetwork}
    (hx : ∀ p ∈ x.nodes, NodeAll (NumVal.Canon h n) p.2) (hn : (x.nodes.map Prod.fst).Nodup) :
    (InputNetwork.fromJson ⟨h, n⟩ x.toJson).1 = .ok x := by
  unfold InputNetwork.fromJson InputNetwork.toJson
  rw [PyM.bind_run, Json.overItems_run (l := x.nodes) (g := InputNode.toJson)
    (by simp [Dict.get?]) (fun c hc => InputNode.roundtrip (hx c hc)) hn]
  simp [Dict.set, PyM.bind_run, Json.setItem, Json.kwargs, Dict.keys]

theorem Json.asNat_natCast (n : ℕ) : Json.asNat (.num (n : ℚ)) = .ok n := by
  simp [Json.asNat]

theorem Json.mapItems_map' {K α β : Type} {f : PyM Json β} {g : α → Json} {w : α → β}
    {l : List (K × α)} (h : ∀ x ∈ l, (f (g x.2)).1 = .ok (w x.2)) :
    (Json.mapItems f (l.map fun p => (p.1, g p.2))).1 = .ok (l.map fun p => (p.1, w p.2)) := by
  induction l with
  | nil => rfl
  | cons x l ih =>
    have hx := h x (by simp)
    have ih := ih (fun y hy => h y (by simp [hy]))
    simp only [List.map_cons, Json.mapItems]
    rcases hf : f (g x.2) with ⟨r, j⟩
    rw [hf] at hx; simp only at hx; subst hx
    simp only
    generalize hm : Json.mapItems f (l.map fun p => (p.1, g p.2)) = res at ih ⊢
    obtain ⟨r', js⟩ := res
    simp only at ih; subst ih
    rfl

theorem Json.overItems_run' {α β : Type} {f : PyM Json β} {g : α → Json} {w : α → β}
    {l : Dict String α} {k : String} {o : List (String × Json)}
    (hk : Dict.get? o k = some (.obj (l.map fun p => (p.1, g p.2))))
    (h : ∀ x ∈ l, (f (g x.2)).1 = .ok (w x.2)) (hn : (l.map Prod.fst).Nodup) :
    Json.overItems k f (.obj o) = (.ok (l.map fun p => (p.1, w p.2)),
      .obj (Dict.set o k (.obj (Json.mapItems f (l.map fun p => (p.1, g p.2))).2))) := by
  have : Dict.ofList (l.map fun p => (p.1, w p.2)) = l.map fun p => (p.1, w p.2) := by
    apply Dict.ofList_of_nodup
    simpa [List.map_map, Function.comp_def] using hn
  simp [Json.overItems, Json.item, Dict.getE, hk, Json.mapItems_map' h, Json.setItem, Except.map,
    this]

theorem Study.versionArg_str {v : String} (h : v ≠ "") : Study.versionArg (.str v) = .ok (some v) := by
  simp [Study.versionArg, Json.falsy, Json.asStr, h, Except.map]

theorem Study.roundtrip {s : Study} (hi : StudyInv s)
    (hu : StudyAll (NumVal.Canon s.horizon s.nbScn) s) (hv : s.version ≠ "")
    (hc : CleanSources s) : (Study.fromJson s.toJson).1 = .ok (filled s) := by
  have : (Study.fromJsonCopy s.toJson).1 = .ok (filled s) := by
    unfold Study.fromJsonCopy Study.toJson
    simp only [PyM.bind_run, Json.item, Dict.getE, Dict.get?, String.reduceEq, if_true, if_false,
      PyM.lift_run, Json.asNat_natCast, Study.versionArg_str hv]
    rw [Json.overItems_run (l := s.networks) (g := InputNetwork.toJson) (by simp [Dict.get?]) ?_
      hi.names.networks]
    · simp only [Dict.set]
      rw [Json.overItems_run' (l := s.converters) (g := Converter.toJson)
        (w := fun c => { c with cost := filledField s.horizon s.nbScn c.cost
                                max := filledField s.horizon s.nbScn c.max })
        (by simp [Dict.get?]) ?_ hi.names.converters]
      · simp [Study.init, hv, filled]
      · rintro ⟨k, c⟩ hp
        refine Converter.roundtrip (hu.2 _ hp) (hi.names.sources _ hp) ?_
        intro k hk
        obtain ⟨g, d, _, rfl, _⟩ := (hi.convs _ hp).sources k hk
        exact ⟨g, d, rfl, hc _ hp g d hk⟩
    · rintro ⟨g, net⟩ hp
      refine InputNetwork.roundtrip ?_ (hi.names.nodes _ hp)
      rintro ⟨d, x⟩ hx
      exact hu.1 g d x ⟨net, hp, hx⟩
  simp [Study.fromJson, this]

theorem filled_of_complete {s : Study} (h : CompleteConverters s) : filled s = s := by
  have : (s.converters.map fun p => (p.1, { p.2 with
      cost := filledField s.horizon s.nbScn p.2.cost
      max := filledField s.horizon s.nbScn p.2.max })) = s.converters := by
    conv_rhs => rw [← List.map_id s.converters]
    apply List.map_congr_left
    rintro ⟨k, c⟩ hp
    obtain ⟨h1, h2⟩ := h _ hp
    have e : ∀ f : ConvField, f ≠ .int0 → filledField s.horizon s.nbScn f = f := by
      intro f hf
      cases f with
      | int0 => exact absurd rfl hf
      | val v => rfl
    simp [e _ h1, e _ h2]
  unfold filled
  rw [this]

/-! ### Results -/

theorem Json.array_run {k : String} {o : List (String × Json)} {a : NdArray}
    (hk : Dict.get? o k = some (Json.ofNd a)) (h : Dense a) :
    Json.array k (.obj o) = (.ok a, .obj o) := by
  simp [Json.array, Json.item, Dict.getE, hk, Json.toNd_ofNd h]

theorem OutputConsumption.roundtrip {c : OutputConsumption} (h : Dense c.quantity) :
    (OutputConsumption.fromJson c.toJson).1 = .ok c := by
  unfold OutputConsumption.fromJson OutputConsumption.toJson
  simp [Json.kwargs, Dict.keys, Json.array_run (a := c.quantity), Dict.get?, h, Json.strOr,
    Json.asStr]

theorem OutputProduction.roundtrip {c : OutputProduction} (h : Dense c.quantity) :
    (OutputProduction.fromJson c.toJson).1 = .ok c := by
  unfold OutputProduction.fromJson OutputProduction.toJson
  simp [Json.kwargs, Dict.keys, Json.array_run (a := c.quantity), Dict.get?, h, Json.strOr,
    Json.asStr]

theorem OutputLink.roundtrip {c : OutputLink} (h : Dense c.quantity) :
    (OutputLink.fromJson c.toJson).1 = .ok c := by
  unfold OutputLink.fromJson OutputLink.toJson
  simp [Json.kwargs, Dict.keys, Json.array_run (a := c.quantity), Dict.get?, h, Json.strOr,
    Json.asStr]

theorem OutputStorage.roundtrip {c : OutputStorage} (h1 : Dense c.capacity) (h2 : Dense c.flowIn)
    (h3 : Dense c.flowOut) : (OutputStorage.fromJson c.toJson).1 = .ok c := by
  unfold OutputStorage.fromJson OutputStorage.toJson
  simp [Json.kwargs, Dict.keys, Json.array_run (a := c.capacity), Json.array_run (a := c.flowIn),
    Json.array_run (a := c.flowOut), Dict.get?, h1, h2, h3, Json.strOr, Json.asStr]

theorem mapM_toNd {l : List (List String × NdArray)} (h : ∀ p ∈ l, Dense p.2) :
    (l.map fun p => (p.1, Json.ofNd p.2)).mapM (fun p : List String × Json => p.2.toNd.map fun a => (p.1, a)) = .ok l := by
  induction l with
  | nil => rfl
  | cons p l ih =>
    rw [List.map_cons, List.mapM_cons, ih (fun q hq => h q (List.mem_cons_of_mem _ hq)), Json.toNd_ofNd (h p (List.mem_cons_self ..))]
    rfl

theorem OutputConverter.roundtrip {c : OutputConverter} (h1 : ∀ p ∈ c.flowSrc, Dense p.2)
    (h2 : Dense c.flowDest) (hn : (c.flowSrc.map Prod.fst).Nodup)
    (hc : ∀ k ∈ c.flowSrc.map Prod.fst, ∃ g d, k = [g, d] ∧ CleanPair g d) :
    (OutputConverter.fromJson c.toJson).1 = .ok c := by
  unfold OutputConverter.fromJson OutputConverter.toJson
  rw [PyM.bind_run, Json.overSplitItems_run (l := c.flowSrc) (g := Json.ofNd) (w := Json.ofNd)
    (by simp [Dict.get?]) (fun x hx => rfl) hn hc]
  simp [Json.kwargs, Dict.keys, Dict.set, Json.strOr, Json.asStr, Dict.get?, 
    Json.setItem, Json.array_run (a := c.flowDest), h2, mapM_toNd h1]

theorem OutputNode.roundtrip {x : OutputNode} (hx : DenseNode x) :
    (OutputNode.fromJson x.toJson).1 = .ok x := by
  unfold OutputNode.fromJson OutputNode.toJson
  rw [PyM.bind_run, Json.overList_run (l := x.consumptions) (g := OutputConsumption.toJson)
    (by simp [Dict.get?]) (fun c hc => OutputConsumption.roundtrip (hx.1 c hc))]
  simp only [Dict.set, PyM.bind_run, Json.setItem, String.reduceEq, if_true, if_false]
  rw [Json.overList_run (l := x.productions) (g := OutputProduction.toJson)
    (by simp [Dict.get?]) (fun c hc => OutputProduction.roundtrip (hx.2 c hc))]
  simp only [Dict.set, PyM.bind_run, Json.setItem, String.reduceEq, if_true, if_false]
  rw [Json.overList_run (l := x.storages) (g := OutputStorage.toJson)
    (by simp [Dict.get?]) (fun c hc => OutputStorage.roundtrip (hx.3 c hc).1 (hx.3 c hc).2.1
      (hx.3 c hc).2.2)]
  simp only [Dict.set, PyM.bind_run, Json.setItem, String.reduceEq, if_true, if_false]
  rw [Json.overList_run (l := x.links) (g := OutputLink.toJson)
    (by simp [Dict.get?]) (fun c hc => OutputLink.roundtrip (hx.4 c hc))]
  simp [Dict.set, PyM.bind_run, Json.setItem, Json.kwargs, Dict.keys]

theorem OutputNetwork.roundtrip {x : OutputNetwork}
    (hx : ∀ p ∈ x.nodes, DenseNode p.2) (hn : (x.nodes.map Prod.fst).Nodup) :
    (OutputNetwork.fromJson x.toJson).1 = .ok x := by
  unfold OutputNetwork.fromJson OutputNetwork.toJson
  rw [PyM.bind_run, Json.overItems_run (l := x.nodes) (g := OutputNode.toJson)
    (by simp [Dict.get?]) (fun c hc => OutputNode.roundtrip (hx c hc)) hn]
  simp [Dict.set, PyM.bind_run, Json.setItem, Json.kwargs, Dict.keys]

theorem Json.asNums_map (l : List ℚ) : Json.asNums (.arr (l.map .num)) = .ok l := by
  simp only [Json.asNums]
  induction l with
  | nil => rfl
  | cons q l ih => rw [List.map_cons, List.mapM_cons, ih]; rfl

theorem Json.numsOr_run {k : String} {o : List (String × Json)} {l : List ℚ}
    (h : Dict.get? o k = some (.arr (l.map .num))) : Json.numsOr k (.obj o) = (.ok l, .obj o) := by
  simp only [Json.numsOr, h]
  cases l with
  | nil => rfl
  | cons q l =>
    rw [if_neg (by simp [Json.falsy]), Json.asNums_map]

theorem Benchmark.roundtrip (b : Benchmark) : (Benchmark.fromJson b.toJson).1 = .ok b := by
  unfold Benchmark.fromJson Benchmark.toJson
  simp [Json.kwargs, Dict.keys, Json.numsOr_run (l := b.modeler), Json.numsOr_run (l := b.solver), Json.numOr, Dict.get?, Json.asNums_map, Json.asNum]

theorem Result.roundtrip {r : Result} (h : ResultOk r) : (Result.fromJson r.toJson).1 = .ok r := by
  unfold Result.fromJson Result.toJson
  rw [PyM.bind_run, Json.overItems_run (l := r.networks) (g := OutputNetwork.toJson)
    (by simp [Dict.get?])
    (fun p hp => OutputNetwork.roundtrip (h.dense p hp) (h.nodes p hp)) h.networks]
  simp only [Dict.set]
  rw [PyM.bind_run, Json.overItems_run (l := r.converters) (g := OutputConverter.toJson)
    (by simp [Dict.get?])
    (fun p hp => OutputConverter.roundtrip (h.convDense p hp).1 (h.convDense p hp).2
      (h.sources p hp) (h.keys p hp)) h.converters]
  simp [Dict.set, Result.onItem, Json.item, Dict.getE, Dict.get?, Benchmark.roundtrip]

end Hadar
