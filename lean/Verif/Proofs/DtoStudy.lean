import Verif.Proofs.Dto
import Verif.Proofs.Numeric

/-! # Contents of the objects of a study or a result -/

namespace Hadar

open Spec PyObj

/-! ### Lists and dicts of objects -/

theorem sameItems_map {A : Type} {R : NdArray → NdArray → Prop} (f : A → PyObj) {l m : List A} :
    SameItems R (l.map f) (m.map f) ↔ List.Forall₂ (fun a b => SameData R (f a) (f b)) l m := by
  induction l generalizing m with
  | nil => cases m <;> simp [SameItems]
  | cons a l ih => cases m <;> simp [SameItems, ih]

theorem sameItems_eq {A : Type} {R : NdArray → NdArray → Prop} {f : A → PyObj} {l m : List A}
    (h : SameItems R (l.map f) (m.map f)) (hf : ∀ a ∈ l, ∀ b ∈ m, SameData R (f a) (f b) → a = b) : l = m := by
  rw [sameItems_map] at h
  induction h with
  | nil => rfl
  | cons h1 _ ih =>
    rw [hf _ List.mem_cons_self _ List.mem_cons_self h1,
      ih fun a ha b hb => hf a (List.mem_cons_of_mem _ ha) b (List.mem_cons_of_mem _ hb)]

theorem sameItems_rfl {A : Type} {R : NdArray → NdArray → Prop} {f : A → PyObj} {l : List A}
    (hf : ∀ a ∈ l, SameData R (f a) (f a)) : SameItems R (l.map f) (l.map f) := by
  induction l with
  | nil => rfl
  | cons a l ih => exact ⟨hf a List.mem_cons_self, ih fun a ha => hf a (List.mem_cons_of_mem _ ha)⟩

theorem get?_mapEntries {K V : Type} [DecidableEq K] {κ : K → PyKey} (hκ : Function.Injective κ)
    (f : V → PyObj) (e : Dict K V) (k : K) :
    Dict.get? (e.map fun p => (κ p.1, f p.2)) (κ k) = (Dict.get? e k).map f := by
  induction e with
  | nil => rfl
  | cons p e ih =>
    simp only [List.map_cons, Dict.get?, hκ.eq_iff]
    split
    · rfl
    · exact ih

theorem sameEntries_iff {K V : Type} [DecidableEq K] {R : NdArray → NdArray → Prop} {κ : K → PyKey}
    (hκ : Function.Injective κ) (f : V → PyObj) (d e : Dict K V) :
    SameEntries R (d.map fun p => (κ p.1, f p.2)) (e.map fun p => (κ p.1, f p.2)) ↔
      ∀ p ∈ d, ∃ w, Dict.get? e p.1 = some w ∧ SameData R (f p.2) (f w) := by
  induction d with
  | nil => simp [SameEntries]
  | cons p d ih =>
    simp only [List.map_cons, SameEntries, ih, get?_mapEntries hκ, List.forall_mem_cons,
      Option.map_eq_some_iff]
    refine and_congr_left' ⟨?_, ?_⟩
    · rintro ⟨y, ⟨w, hw, rfl⟩, h⟩; exact ⟨w, hw, h⟩
    · rintro ⟨w, hw, h⟩; exact ⟨_, ⟨w, hw, rfl⟩, h⟩

/-- dicts of the same size whose entries match: the same keys with matching values -/
theorem sameMap_of_entries {K V : Type} [DecidableEq K] {R : NdArray → NdArray → Prop} {κ : K → PyKey}
    (hκ : Function.Injective κ) {f : V → PyObj} {d e : Dict K V} (hd : (d.map Prod.fst).Nodup)
    (he : (e.map Prod.fst).Nodup) (hl : d.length = e.length)
    (h : SameEntries R (d.map fun p => (κ p.1, f p.2)) (e.map fun p => (κ p.1, f p.2))) :
    SameMap (fun v w => SameData R (f v) (f w)) d e := by
  rw [sameEntries_iff hκ] at h
  have hsub : d.map Prod.fst ⊆ e.map Prod.fst := by
    intro k hk
    obtain ⟨p, hp, rfl⟩ := List.mem_map.1 hk
    obtain ⟨w, hw, _⟩ := h p hp
    exact List.mem_map.2 ⟨_, Dict.mem_of_get? hw, rfl⟩
  have hperm := (List.subperm_of_subset hd hsub).perm_of_length_le (by simp [hl])
  refine ⟨fun k => hperm.mem_iff, fun k v w hv hw => ?_⟩
  obtain ⟨w', hw', hs⟩ := h _ hv
  rw [Dict.get?_of_mem he hw] at hw'
  cases hw'
  exact hs

theorem entries_of_sameMap {K V : Type} [DecidableEq K] {R : NdArray → NdArray → Prop} {κ : K → PyKey}
    (hκ : Function.Injective κ) {f : V → PyObj} {d e : Dict K V} (hd : (d.map Prod.fst).Nodup)
    (he : (e.map Prod.fst).Nodup) (h : SameMap (fun v w => SameData R (f v) (f w)) d e) :
    d.length = e.length ∧
      SameEntries R (d.map fun p => (κ p.1, f p.2)) (e.map fun p => (κ p.1, f p.2)) := by
  constructor
  · have := ((List.perm_ext_iff_of_nodup hd he).2 h.keys).length_eq
    simpa using this
  · rw [sameEntries_iff hκ]
    intro p hp
    have : p.1 ∈ e.map Prod.fst := (h.keys _).1 (List.mem_map_of_mem (f := Prod.fst) hp)
    obtain ⟨q, hq, e1⟩ := List.mem_map.1 this
    obtain ⟨k, w⟩ := q
    simp only at e1
    subst e1
    exact ⟨w, Dict.get?_of_mem he hq, h.values _ _ _ hp hq⟩

theorem Spec.SameMap.imp {K V : Type} {R S : V → V → Prop} {d e : Dict K V} (h : SameMap R d e)
    (hi : ∀ p ∈ d, ∀ q ∈ e, R p.2 q.2 → S p.2 q.2) : SameMap S d e :=
  ⟨h.keys, fun k v w hv hw => hi _ hv _ hw (h.values k v w hv hw)⟩

theorem str_injective : Function.Injective PyKey.str := fun _ _ h => by cases h; rfl
theorem tup_injective : Function.Injective PyKey.tup := fun _ _ h => by cases h; rfl

/-! ### Values -/

theorem NumVal.obj_same {h n h' n' : ℕ} {v w : NumVal} (hv : v.Sized h n) (hw : w.Sized h' n')
    (hs : SameData SameNumbers v.obj w.obj) : v = w := by
  obtain ⟨k, hor, scn⟩ := v
  obtain ⟨k', hor', scn'⟩ := w
  obtain ⟨h1, h2, h3⟩ := hv
  obtain ⟨h1', h2', h3'⟩ := hw
  simp only at h1 h2 h1' h2' h3 h3'
  subst h1 h2 h1' h2'
  cases k <;> cases k' <;>
    simp [NumVal.obj, SameData, SameEntries, Dict.get?, attr, NumKind.cls] at hs ⊢ <;>
    simp_all [SameNumbers]

theorem NumVal.obj_rfl {R : NdArray → NdArray → Prop} (hR : ∀ a, R a a) (v : NumVal) :
    SameData R v.obj v.obj := by
  obtain ⟨k, hor, scn⟩ := v
  cases k <;> simp [NumVal.obj, SameData, SameEntries, Dict.get?, attr, NumKind.cls, hR]

/-! ### Studies -/

/-- values sized for some study -/
def SomeSized (v : NumVal) : Prop := ∃ h n, v.Sized h n

theorem SomeSized.same {v w : NumVal} (hv : SomeSized v) (hw : SomeSized w)
    (hs : SameData SameNumbers v.obj w.obj) : v = w := by
  obtain ⟨_, _, hv⟩ := hv
  obtain ⟨_, _, hw⟩ := hw
  exact NumVal.obj_same hv hw hs

theorem InputNode.obj_same {n m : InputNode} (hn : NodeAll SomeSized n) (hm : NodeAll SomeSized m)
    (h : SameData SameNumbers n.obj m.obj) : n = m := by
  obtain ⟨c, p, s, l⟩ := n
  obtain ⟨c', p', s', l'⟩ := m
  simp [InputNode.obj, SameData, SameEntries, Dict.get?, attr] at h
  obtain ⟨h1, h2, h3, h4⟩ := h
  congr 1
  · refine sameItems_eq h1 ?_
    rintro ⟨a1, a2, a3⟩ ha ⟨b1, b2, b3⟩ hb hs
    simp [Consumption.obj, SameData, SameEntries, Dict.get?, attr] at hs
    have h1 := hn.consumptions _ ha
    have h2 := hm.consumptions _ hb
    simp only at h1 h2
    simp [hs.2.2, h1.1.same h2.1 hs.2.1, h1.2.same h2.2 hs.1]
  · refine sameItems_eq h2 ?_
    rintro ⟨a1, a2, a3⟩ ha ⟨b1, b2, b3⟩ hb hs
    simp [Production.obj, SameData, SameEntries, Dict.get?, attr] at hs
    have h1 := hn.productions _ ha
    have h2 := hm.productions _ hb
    simp only at h1 h2
    simp [hs.1, h1.1.same h2.1 hs.2.2, h1.2.same h2.2 hs.2.1]
  · refine sameItems_eq h3 ?_
    rintro ⟨a1, a2, a3, a4, a5, a6, a7⟩ ha ⟨b1, b2, b3, b4, b5, b6, b7⟩ hb hs
    simp [Storage.obj, SameData, SameEntries, Dict.get?, attr] at hs
    have h1 := hn.storages _ ha
    have h2 := hm.storages _ hb
    simp only at h1 h2
    obtain ⟨e1, e2, e3, e4, e5, e6, e7⟩ := hs
    simp [e1, e6, h1.1.same h2.1 e2, h1.2.1.same h2.2.1 e3, h1.2.2.1.same h2.2.2.1 e4,
      h1.2.2.2.1.same h2.2.2.2.1 e5, h1.2.2.2.2.same h2.2.2.2.2 e7]
  · refine sameItems_eq h4 ?_
    rintro ⟨a1, a2, a3⟩ ha ⟨b1, b2, b3⟩ hb hs
    simp [Link.obj, SameData, SameEntries, Dict.get?, attr] at hs
    have h1 := hn.links _ ha
    have h2 := hm.links _ hb
    simp only at h1 h2
    simp [hs.1, h1.1.same h2.1 hs.2.1, h1.2.same h2.2 hs.2.2]

theorem InputNode.obj_rfl {R : NdArray → NdArray → Prop} (hR : ∀ a, R a a) (n : InputNode) :
    SameData R n.obj n.obj := by
  simp [InputNode.obj, SameData, SameEntries, Dict.get?, attr]
  refine ⟨sameItems_rfl fun a _ => ?_, sameItems_rfl fun a _ => ?_, sameItems_rfl fun a _ => ?_,
    sameItems_rfl fun a _ => ?_⟩ <;>
  simp [Consumption.obj, Production.obj, Storage.obj, Link.obj, SameData, SameEntries, Dict.get?, attr,
    NumVal.obj_rfl hR]

theorem ConvField.obj_same {f g : ConvField} (hf : ∀ v, f = .val v → SomeSized v)
    (hg : ∀ v, g = .val v → SomeSized v) (h : SameData SameNumbers f.obj g.obj) : f = g := by
  cases f with
  | int0 =>
    cases g with
    | int0 => rfl
    | val w => simp [ConvField.obj, NumVal.obj, SameData] at h
  | val v =>
    cases g with
    | int0 => simp [ConvField.obj, NumVal.obj, SameData] at h
    | val w => rw [(hf v rfl).same (hg w rfl) h]

theorem ConvField.obj_rfl {R : NdArray → NdArray → Prop} (hR : ∀ a, R a a) (f : ConvField) :
    SameData R f.obj f.obj := by
  cases f with
  | int0 => simp [ConvField.obj, SameData]
  | val v => exact NumVal.obj_rfl hR v

theorem Converter.obj_same {c d : Converter} (hc : ConvAll SomeSized c) (hd : ConvAll SomeSized d)
    (nc : (c.srcRatios.map Prod.fst).Nodup) (nd : (d.srcRatios.map Prod.fst).Nodup)
    (h : SameData SameNumbers c.obj d.obj) : SameConverterData c d := by
  simp [Converter.obj, SameData, SameEntries, Dict.get?, attr] at h
  obtain ⟨h1, ⟨h2, h2'⟩, h3, h4, h5, h6⟩ := h
  refine ⟨h1, ?_, h3, h4, ConvField.obj_same hc.2.1 hd.2.1 h5, ConvField.obj_same hc.2.2 hd.2.2 h6⟩
  exact (sameMap_of_entries tup_injective nc nd h2 h2').imp
    fun p hp q hq hs => (hc.1 p hp).same (hd.1 q hq) hs

theorem Converter.obj_of_same {R : NdArray → NdArray → Prop} (hR : ∀ a, R a a) {c d : Converter}
    (nc : (c.srcRatios.map Prod.fst).Nodup) (nd : (d.srcRatios.map Prod.fst).Nodup)
    (h : SameConverterData c d) : SameData R c.obj d.obj := by
  obtain ⟨h1, h2, h3, h4, h5, h6⟩ := h
  have := entries_of_sameMap (R := R) tup_injective (f := NumVal.obj) nc nd
    (h2.imp fun p _ q _ e => by rw [e]; exact NumVal.obj_rfl hR _)
  simp [Converter.obj, SameData, SameEntries, Dict.get?, attr, h1, h3, h4, h5, h6, ConvField.obj_rfl hR]
  exact this

/-- what is needed of studies: unique names, values of the right sizes -/
structure Tidy (s : Study) : Prop where
  names : UniqueNames s
  sized : StudyAll SomeSized s

theorem Study.obj_same {s t : Study} (hs : Tidy s) (ht : Tidy t) (h : SameData SameNumbers s.obj t.obj) :
    SameStudyData s t := by
  simp [Study.obj, SameData, SameEntries, Dict.get?, attr, Factory.obj, Study.factory] at h
  obtain ⟨h1, ⟨h2, h2'⟩, ⟨h3, h3'⟩, h4, h5⟩ := h
  refine ⟨h1, ?_, ?_, h4, by first | exact h5 | exact h5.1⟩
  · refine (sameMap_of_entries str_injective hs.names.networks ht.names.networks h2 h2').imp ?_
    intro p hp q hq e
    simp [InputNetwork.obj, SameData, SameEntries, Dict.get?, attr] at e
    refine (sameMap_of_entries str_injective (hs.names.nodes p hp) (ht.names.nodes q hq) e.1 e.2).imp ?_
    intro a ha b hb e
    exact InputNode.obj_same (hs.sized.1 p.1 a.1 a.2 ⟨p.2, hp, ha⟩) (ht.sized.1 q.1 b.1 b.2 ⟨q.2, hq, hb⟩) e
  · refine (sameMap_of_entries str_injective hs.names.converters ht.names.converters h3 h3').imp ?_
    intro p hp q hq e
    exact Converter.obj_same (hs.sized.2 p hp) (ht.sized.2 q hq) (hs.names.sources p hp)
      (ht.names.sources q hq) e

theorem Study.obj_of_same {R : NdArray → NdArray → Prop} (hR : ∀ a, R a a) {s t : Study}
    (hs : UniqueNames s) (ht : UniqueNames t) (h : SameStudyData s t) : SameData R s.obj t.obj := by
  obtain ⟨h1, h2, h3, h4, h5⟩ := h
  have k2 := entries_of_sameMap (R := R) str_injective (f := InputNetwork.obj) hs.networks ht.networks
    (h2.imp fun p hp q hq e => by
      simp [InputNetwork.obj, SameData, SameEntries, Dict.get?, attr]
      have := entries_of_sameMap (R := R) str_injective (f := InputNode.obj) (hs.nodes p hp) (ht.nodes q hq)
        (e.imp fun a _ b _ e => by rw [e]; exact InputNode.obj_rfl hR _)
      exact this)
  have k3 := entries_of_sameMap (R := R) str_injective (f := Converter.obj) hs.converters ht.converters
    (h3.imp fun p hp q hq e => Converter.obj_of_same hR (hs.sources p hp) (ht.sources q hq) e)
  simp [Study.obj, SameData, SameEntries, Dict.get?, attr, Factory.obj, Study.factory, h1, h4, h5]
  exact ⟨k2, k3⟩

/-! ### Results -/

theorem OutputNode.obj_same {n m : OutputNode} {P : NdArray → Prop} (hP : ∀ a b, P a → P b → SameNumbers a b → a = b)
    (hn : (∀ c ∈ n.consumptions, P c.quantity) ∧ (∀ c ∈ n.productions, P c.quantity) ∧
      (∀ c ∈ n.storages, P c.capacity ∧ P c.flowIn ∧ P c.flowOut) ∧ ∀ c ∈ n.links, P c.quantity)
    (hm : (∀ c ∈ m.consumptions, P c.quantity) ∧ (∀ c ∈ m.productions, P c.quantity) ∧
      (∀ c ∈ m.storages, P c.capacity ∧ P c.flowIn ∧ P c.flowOut) ∧ ∀ c ∈ m.links, P c.quantity)
    (h : SameData SameNumbers n.obj m.obj) : n = m := by
  obtain ⟨c, p, s, l⟩ := n
  obtain ⟨c', p', s', l'⟩ := m
  simp [OutputNode.obj, SameData, SameEntries, Dict.get?, attr] at h
  obtain ⟨h1, h2, h3, h4⟩ := h
  congr 1
  · refine sameItems_eq h1 ?_
    rintro ⟨a1, a2⟩ ha ⟨b1, b2⟩ hb hs
    simp [OutputConsumption.obj, SameData, SameEntries, Dict.get?, attr] at hs
    have e : a1 = b1 := hP _ _ (hn.1 _ ha) (hm.1 _ hb) hs.1
    simp [hs.2, e]
  · refine sameItems_eq h2 ?_
    rintro ⟨a1, a2⟩ ha ⟨b1, b2⟩ hb hs
    simp [OutputProduction.obj, SameData, SameEntries, Dict.get?, attr] at hs
    have e : a2 = b2 := hP _ _ (hn.2.1 _ ha) (hm.2.1 _ hb) hs.2
    simp [hs.1, e]
  · refine sameItems_eq h3 ?_
    rintro ⟨a1, a2, a3, a4⟩ ha ⟨b1, b2, b3, b4⟩ hb hs
    simp [OutputStorage.obj, SameData, SameEntries, Dict.get?, attr] at hs
    have h1 := hn.2.2.1 _ ha
    have h2 := hm.2.2.1 _ hb
    have e2 : a2 = b2 := hP _ _ h1.1 h2.1 hs.2.1
    have e3 : a3 = b3 := hP _ _ h1.2.1 h2.2.1 hs.2.2.1
    have e4 : a4 = b4 := hP _ _ h1.2.2 h2.2.2 hs.2.2.2
    simp [hs.1, e2, e3, e4]
  · refine sameItems_eq h4 ?_
    rintro ⟨a1, a2⟩ ha ⟨b1, b2⟩ hb hs
    simp [OutputLink.obj, SameData, SameEntries, Dict.get?, attr] at hs
    have e : a2 = b2 := hP _ _ (hn.2.2.2 _ ha) (hm.2.2.2 _ hb) hs.2
    simp [hs.1, e]

theorem OutputNode.obj_rfl {R : NdArray → NdArray → Prop} (hR : ∀ a, R a a) (n : OutputNode) :
    SameData R n.obj n.obj := by
  simp [OutputNode.obj, SameData, SameEntries, Dict.get?, attr]
  refine ⟨sameItems_rfl fun a _ => ?_, sameItems_rfl fun a _ => ?_, sameItems_rfl fun a _ => ?_,
    sameItems_rfl fun a _ => ?_⟩ <;>
  simp [OutputConsumption.obj, OutputProduction.obj, OutputStorage.obj, OutputLink.obj, SameData, SameEntries,
    Dict.get?, attr, hR]

theorem Result.obj_same {r t : Result} {P : NdArray → Prop} (hP : ∀ a b, P a → P b → SameNumbers a b → a = b)
    (hr : ResultNames r) (ht : ResultNames t) (ar : ResultArrays P r) (at' : ResultArrays P t)
    (h : SameData SameNumbers r.obj t.obj) : SameResultData r t := by
  obtain ⟨rn, rc, rm, rs, rp, ro⟩ := r
  obtain ⟨tn, tc, tm, ts, tp, tt⟩ := t
  simp [Result.obj, Benchmark.obj, SameData, SameEntries, Dict.get?, attr] at h
  obtain ⟨⟨h1, h1'⟩, ⟨h2, h2'⟩, h3, h4, h5, h6⟩ := h
  refine ⟨?_, ?_, ?_⟩
  · refine (sameMap_of_entries str_injective hr.networks ht.networks h1 h1').imp ?_
    intro p hp q hq e
    simp [OutputNetwork.obj, SameData, SameEntries, Dict.get?, attr] at e
    refine (sameMap_of_entries str_injective (hr.nodes p hp) (ht.nodes q hq) e.1 e.2).imp ?_
    intro a ha b hb e
    exact OutputNode.obj_same hP (ar.nodes p hp a ha) (at'.nodes q hq b hb) e
  · refine (sameMap_of_entries str_injective hr.converters ht.converters h2 h2').imp ?_
    intro p hp q hq e
    simp [OutputConverter.obj, SameData, SameEntries, Dict.get?, attr] at e
    obtain ⟨e1, ⟨e2, e2'⟩, e3⟩ := e
    have x1 := ar.converters p hp
    have x2 := at'.converters q hq
    refine ⟨e1, ?_, hP _ _ x1.2 x2.2 e3⟩
    exact (sameMap_of_entries (f := fun a => PyObj.arr 0 a) tup_injective (hr.sources p hp) (ht.sources q hq) e2 e2').imp
      fun a ha b hb e => hP _ _ (x1.1 a ha) (x2.1 b hb) e
  · simp only [Benchmark.mk.injEq]
    refine ⟨sameItems_eq h3 ?_, sameItems_eq h4 ?_, h5, h6⟩ <;>
    · intro a _ b _ e; exact e

theorem Result.obj_of_same {R : NdArray → NdArray → Prop} (hR : ∀ a, R a a) {r t : Result}
    (hr : ResultNames r) (ht : ResultNames t) (h : SameResultData r t) : SameData R r.obj t.obj := by
  obtain ⟨h1, h2, h3⟩ := h
  have k1 := entries_of_sameMap (R := R) str_injective (f := OutputNetwork.obj) hr.networks ht.networks
    (h1.imp fun p hp q hq e => by
      simp [OutputNetwork.obj, SameData, SameEntries, Dict.get?, attr]
      have := entries_of_sameMap (R := R) str_injective (f := OutputNode.obj) (hr.nodes p hp) (ht.nodes q hq)
        (e.imp fun a _ b _ e => by rw [e]; exact OutputNode.obj_rfl hR _)
      exact this)
  have k2 := entries_of_sameMap (R := R) str_injective (f := OutputConverter.obj) hr.converters ht.converters
    (h2.imp fun p hp q hq e => by
      have := entries_of_sameMap (R := R) tup_injective (f := fun a => PyObj.arr 0 a) (hr.sources p hp)
        (ht.sources q hq) (e.sources.imp fun a _ b _ e => by rw [e]; exact hR _)
      simp [OutputConverter.obj, SameData, SameEntries, Dict.get?, attr, e.name, e.dest, hR]
      exact this)
  have k3 := sameItems_rfl (R := R) (f := PyObj.num) (l := t.benchmark.modeler) fun a _ => rfl
  have k4 := sameItems_rfl (R := R) (f := PyObj.num) (l := t.benchmark.solver) fun a _ => rfl
  simp [Result.obj, SameData, SameEntries, Dict.get?, attr, Benchmark.obj, h3]
  exact ⟨k1, k2, k3, k4⟩

end Hadar
