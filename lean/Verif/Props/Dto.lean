import Verif.Proofs.DtoCopy
import Verif.Props.Json

/-!
# C82: equality and hash of studies and results (optimizer/utils.py 11-34)

`strict` is the version of numpy (1.25 or later, where comparing arrays whose shapes do not fit raises), and
`mem` is the memory: `x` and `y` may share parts, for instance arrays given to both studies.
-/

namespace Hadar.Props

open Hadar Spec World PyObj

/-- C82 (full claim, for studies made of numbers, lists and arrays): `==` always answers, and answers whether the
studies have the same data. The code violates it (`C82_refuted`). -/
def C82_claim : Prop := ∀ (strict : Bool) (mem : ℕ → PyObj) (x y : PyObj) (h n h' n' : ℕ) (cs cs' : List Call),
  (∀ c ∈ cs, RawCall c) → (∀ c ∈ cs', RawCall c) →
  StudyObject mem x ((start h n).run cs).study → StudyObject mem y ((start h' n').run cs').study →
  (equal strict x y = .ok true ∧ SameStudyData ((start h n).run cs).study ((start h' n').run cs').study) ∨
  (equal strict x y = .ok false ∧ ¬ SameStudyData ((start h n).run cs).study ((start h' n').run cs').study)

variable {strict : Bool} {mem : ℕ → PyObj} {x y : PyObj} {h n h' n' : ℕ} {cs cs' : List Call}

theorem sameData_obj {R : NdArray → NdArray → Prop} {a b : PyObj} (hx : x.erase = a) (hy : y.erase = b) :
    SameData R x y ↔ SameData R a b := by
  rw [← sameData_erase R x y, hx, hy]

/-- **C82.** Studies said to be equal have the same data. -/
theorem C82_true_partial (hr : ∀ c ∈ cs, RawCall c) (hr' : ∀ c ∈ cs', RawCall c)
    (hx : StudyObject mem x ((start h n).run cs).study) (hy : StudyObject mem y ((start h' n').run cs').study)
    (he : equal strict x y = .ok true) :
    SameStudyData ((start h n).run cs).study ((start h' n').run cs').study :=
  Study.obj_same (tidy_run' h n cs hr) (tidy_run' h' n' cs' hr')
    ((sameData_obj hx.2 hy.2).1 (equal_true hx.1 hy.1 he))

/-- what `==` can answer on studies with the same data -/
theorem study_same (hr : ∀ c ∈ cs, RawCall c) (hh : 0 < h) (hn : 0 < n)
    (hx : StudyObject mem x ((start h n).run cs).study) (hy : StudyObject mem y ((start h' n').run cs').study)
    (hs : SameStudyData ((start h n).run cs).study ((start h' n').run cs').study) :
    TrueOrRaises (equal strict x y) := by
  refine equal_of_same ?_ ((sameData_obj hx.2 hy.2).2
    (Study.obj_of_same (fun _ => rfl) (C06_unique_names h n cs) (C06_unique_names h' n' cs') hs))
  rw [← arrays_erase, hx.2, Study.obj_arrays]
  exact (tidy_run h n cs hr).2.imp fun v hv => hv.nonempty hh hn

/-- **C82.** Studies said to be different have different data. -/
theorem C82_false_partial (hr : ∀ c ∈ cs, RawCall c) (hh : 0 < h) (hn : 0 < n)
    (hx : StudyObject mem x ((start h n).run cs).study) (hy : StudyObject mem y ((start h' n').run cs').study)
    (he : equal strict x y = .ok false) :
    ¬ SameStudyData ((start h n).run cs).study ((start h' n').run cs').study := by
  intro hs
  rcases study_same (strict := strict) hr hh hn hx hy hs with h1 | h1 <;> rw [he] at h1 <;> cases h1

/-- **C82.** The one error that `==` raises is `ValueError`. -/
theorem C82_raises {e : PyErr} (he : equal strict x y = .error e) : e = .valueError := equal_error he

/-- **C82.** An object is equal to itself, arrays or not. -/
theorem C82_self (strict : Bool) (hx : Live mem x) : equal strict x x = .ok true := equal_self strict hx

/-- **C82.** When all series are given as numbers (or arrays of one number), `==` always answers, and answers
whether data are the same. What is missing from the claim: studies with longer arrays, see `C82_copy_partial`. -/
theorem C82_numbers_partial (hr : ∀ c ∈ cs, RawCall c) (hr' : ∀ c ∈ cs', RawCall c)
    (hx : StudyObject mem x ((start h n).run cs).study) (hy : StudyObject mem y ((start h' n').run cs').study)
    (hn1 : Numbers ((start h n).run cs).study) (hn2 : Numbers ((start h' n').run cs').study) :
    (equal strict x y = .ok true ∧ SameStudyData ((start h n).run cs).study ((start h' n').run cs').study) ∨
    (equal strict x y = .ok false ∧ ¬ SameStudyData ((start h n).run cs).study ((start h' n').run cs').study) := by
  have a1 : Arrays OneElement x := by rw [← arrays_erase, hx.2, Study.obj_arrays]; exact hn1
  have a2 : Arrays OneElement y := by rw [← arrays_erase, hy.2, Study.obj_arrays]; exact hn2
  obtain ⟨b, hb⟩ := equal_total (strict := strict) a1 a2
  cases b with
  | true => exact .inl ⟨hb, C82_true_partial hr hr' hx hy hb⟩
  | false =>
    refine .inr ⟨hb, fun hs => ?_⟩
    have a3 : Arrays (fun a => a.data ≠ []) x := by
      rw [← arrays_erase, hx.2, Study.obj_arrays]
      exact hn1.imp fun v hv a ha e => by have := hv a ha; simp [OneElement, e] at this
    have := equal_of_same (strict := strict) a3 ((sameData_obj hx.2 hy.2).2
      (Study.obj_of_same (fun _ => rfl) (C06_unique_names h n cs) (C06_unique_names h' n' cs') hs))
    rcases this with h1 | h1 <;> rw [hb] at h1 <;> cases h1

/-- **C82.** Two studies with the same data that share no object: `==` is true when all series are numbers, and
raises `ValueError` otherwise. -/
theorem C82_copy_partial (hr : ∀ c ∈ cs, RawCall c) (hh : 0 < h) (hn : 0 < n)
    (hx : StudyObject mem x ((start h n).run cs).study) (hy : StudyObject mem y ((start h' n').run cs').study)
    (hs : SameStudyData ((start h n).run cs).study ((start h' n').run cs').study) (ha : NothingShared x y) :
    (Numbers ((start h n).run cs).study → equal strict x y = .ok true) ∧
    (¬ Numbers ((start h n).run cs).study → equal strict x y = .error .valueError) := by
  have key := study_same (strict := strict) hr hh hn hx hy hs
  have hyx : SameData Eq x y := (sameData_obj hx.2 hy.2).2
    (Study.obj_of_same (fun _ => rfl) (C06_unique_names h n cs) (C06_unique_names h' n' cs') hs)
  constructor
  · intro hnum
    have a1 : Arrays OneElement x := by rw [← arrays_erase, hx.2, Study.obj_arrays]; exact hnum
    exact equal_one_same a1 hyx
  · intro hnum
    refine key.resolve_left fun ht => hnum ?_
    have := equal_apart ha ht
    rwa [← arrays_erase, hx.2, Study.obj_arrays] at this

/-- **C82.** A study written as JSON and read back, with the hypotheses of C14: equal to the first one when its
series are numbers, `ValueError` otherwise. -/
theorem C82_json_partial (hr : ∀ c ∈ cs, RawCall c) (hh : 0 < h) (hn : 0 < n)
    (hc : CleanSources ((start h n).run cs).study) (hd : CompleteConverters ((start h n).run cs).study)
    {t : Study} (ht : (Study.fromJson ((start h n).run cs).study.toJson).1 = .ok t)
    (hx : StudyObject mem x ((start h n).run cs).study) (hy : StudyObject mem y t) (ha : NothingShared x y) :
    (Numbers ((start h n).run cs).study → equal strict x y = .ok true ∧ equal strict y x = .ok true) ∧
    (¬ Numbers ((start h n).run cs).study →
      equal strict x y = .error .valueError ∧ equal strict y x = .error .valueError) := by
  rw [C14_roundtrip_complete_partial h n cs hn hr hc hd] at ht
  cases ht
  have hs : SameStudyData ((start h n).run cs).study ((start h n).run cs).study := by
    refine Study.obj_same (tidy_run' h n cs hr) (tidy_run' h n cs hr) ?_
    exact (sameData_obj hx.2 hx.2).1 (equal_true hx.1 hx.1 (equal_self false hx.1))
  have ha' : NothingShared y x := by
    obtain ⟨P, h1, h2⟩ := ha
    exact ⟨fun i => ¬ P i, h2, ids_imp (fun i hi hn => hn hi) x h1⟩
  have k1 := C82_copy_partial (strict := strict) hr hh hn hx hy hs ha
  have k2 := C82_copy_partial (strict := strict) hr hh hn hy hx hs ha'
  exact ⟨fun h => ⟨k1.1 h, k2.1 h⟩, fun h => ⟨k1.2 h, k2.2 h⟩⟩

/-! ### The hypotheses are met, and the claim fails -/

theorem unique_value {K V : Type} [DecidableEq K] {d : Dict K V} (hd : (d.map Prod.fst).Nodup) {k : K} {v w : V}
    (hv : (k, v) ∈ d) (hw : (k, w) ∈ d) : v = w := by
  have h1 := Dict.get?_of_mem hd hv
  rw [Dict.get?_of_mem hd hw] at h1
  exact (Option.some.inj h1).symm

/-- any study can be in memory twice -/
theorem two_objects (h n : ℕ) (cs : List Call) : ∃ mem x y, StudyObject mem x ((start h n).run cs).study ∧
    StudyObject mem y ((start h n).run cs).study ∧ NothingShared x y := by
  have hf := Study.obj_formed (C06_unique_names h n cs)
  obtain ⟨mem, x, y, h1, h2, h3, h4, h5⟩ := exists_apart _ _ hf hf
  exact ⟨mem, x, y, ⟨h1, by rw [h3, Study.obj_erase]⟩, ⟨h2, by rw [h4, Study.obj_erase]⟩, h5⟩

/-- a consumption given as a list -/
def listCalls : List Call :=
  [.studyNetwork "elec", .netNode 0 "a", .nodeConsumption 0 "load" (.num 10) (.array ⟨[2], [1, 2], rfl⟩)]

theorem listCalls_raw : ∀ c ∈ listCalls, RawCall c := by
  intro c hc
  simp only [listCalls, List.mem_cons, List.not_mem_nil, or_false] at hc
  rcases hc with rfl | rfl | rfl <;> simp [RawCall]

theorem listCalls_study : ((start 2 1).run listCalls).study.networks =
    [("elec", ⟨[("a", ⟨[⟨⟨.scalar 10, 2, 1⟩, ⟨.row ⟨[2], [1, 2], rfl⟩, 2, 1⟩, "load"⟩], [], [], []⟩)]⟩)] := by
  decide +kernel

theorem listCalls_numbers : ¬ Numbers ((start 2 1).run listCalls).study := by
  intro h
  have := (h.1 "elec" "a" ⟨[⟨⟨.scalar 10, 2, 1⟩, ⟨.row ⟨[2], [1, 2], rfl⟩, 2, 1⟩, "load"⟩], [], [], []⟩
    ⟨_, by rw [listCalls_study]; exact List.mem_singleton.2 rfl, List.mem_singleton.2 rfl⟩).consumptions _
    (List.mem_singleton.2 rfl)
  have := this.1 _ (.inr (.inl rfl))
  simp [OneElement] at this

/-- **C82 refuted.** A study with one consumption given as a list of two numbers, and another study made by the
same calls: comparing them raises `ValueError`, whatever the version of numpy. So does comparing it with what is
read from its own JSON. -/
theorem C82_refuted (strict : Bool) : ∃ mem x y, StudyObject mem x ((start 2 1).run listCalls).study ∧
    StudyObject mem y ((start 2 1).run listCalls).study ∧
    (Study.fromJson ((start 2 1).run listCalls).study.toJson).1 = .ok ((start 2 1).run listCalls).study ∧
    equal strict x y = .error .valueError ∧ ¬ C82_claim := by
  obtain ⟨mem, x, y, hx, hy, ha⟩ := two_objects 2 1 listCalls
  have hs : SameStudyData ((start 2 1).run listCalls).study ((start 2 1).run listCalls).study :=
    C82_true_partial listCalls_raw listCalls_raw hx hx (C82_self false hx.1)
  have he : ∀ strict, equal strict x y = .error .valueError := fun strict =>
    (C82_copy_partial listCalls_raw (by decide) (by decide) hx hy hs ha).2 listCalls_numbers
  refine ⟨mem, x, y, hx, hy, by decide +kernel, he strict, fun hc => ?_⟩
  rcases hc strict mem x y 2 1 2 1 listCalls listCalls listCalls_raw listCalls_raw hx hy with h1 | h1 <;>
    rw [he strict] at h1 <;> cases h1.1

/-- a consumption given as a number -/
def numberCalls (q : ℚ) : List Call :=
  [.studyNetwork "elec", .netNode 0 "a", .nodeConsumption 0 "load" (.num 10) (.num q)]

theorem numberCalls_raw (q : ℚ) : ∀ c ∈ numberCalls q, RawCall c := by
  intro c hc
  simp only [numberCalls, List.mem_cons, List.not_mem_nil, or_false] at hc
  rcases hc with rfl | rfl | rfl <;> simp [RawCall]

/-- the hypotheses of `C82_numbers_partial`, and both answers: studies that differ by one number, and twice the
same study -/
theorem numbers_apart : ∃ mem x y, StudyObject mem x ((start 2 1).run (numberCalls 1)).study ∧
    StudyObject mem y ((start 2 1).run (numberCalls 3)).study ∧ Numbers ((start 2 1).run (numberCalls 1)).study ∧
    Numbers ((start 2 1).run (numberCalls 3)).study ∧
    equal false x x = .ok true ∧ equal false x y = .ok false ∧
    ¬ SameStudyData ((start 2 1).run (numberCalls 1)).study ((start 2 1).run (numberCalls 3)).study := by
  have e1 : ((start 2 1).run (numberCalls 1)).study = ⟨(start 2 1).study.version,
    [("elec", ⟨[("a", ⟨[⟨⟨.scalar 10, 2, 1⟩, ⟨.scalar 1, 2, 1⟩, "load"⟩], [], [], []⟩)]⟩)], [], 2, 1⟩ := by
    decide +kernel
  have e3 : ((start 2 1).run (numberCalls 3)).study = ⟨(start 2 1).study.version,
    [("elec", ⟨[("a", ⟨[⟨⟨.scalar 10, 2, 1⟩, ⟨.scalar 3, 2, 1⟩, "load"⟩], [], [], []⟩)]⟩)], [], 2, 1⟩ := by
    decide +kernel
  have hf1 := Study.obj_formed (C06_unique_names 2 1 (numberCalls 1))
  have hf3 := Study.obj_formed (C06_unique_names 2 1 (numberCalls 3))
  obtain ⟨mem, x, y, h1, h2, h3, h4, h5⟩ := exists_apart _ _ hf1 hf3
  have hx : StudyObject mem x ((start 2 1).run (numberCalls 1)).study := ⟨h1, by rw [h3, Study.obj_erase]⟩
  have hy : StudyObject mem y ((start 2 1).run (numberCalls 3)).study := ⟨h2, by rw [h4, Study.obj_erase]⟩
  have n1 : Numbers ((start 2 1).run (numberCalls 1)).study := by
    unfold Numbers
    rw [e1, ← Study.obj_arrays]
    simp [Study.obj, Arrays, ArraysEntries, attr, InputNetwork.obj, InputNode.obj, ArraysItems, Consumption.obj,
      NumVal.obj, Factory.obj]
  have n3 : Numbers ((start 2 1).run (numberCalls 3)).study := by
    unfold Numbers
    rw [e3, ← Study.obj_arrays]
    simp [Study.obj, Arrays, ArraysEntries, attr, InputNetwork.obj, InputNode.obj, ArraysItems, Consumption.obj,
      NumVal.obj, Factory.obj]
  have hd : ¬ SameStudyData ((start 2 1).run (numberCalls 1)).study ((start 2 1).run (numberCalls 3)).study := by
    rw [e1, e3]
    intro hs
    have := (hs.networks.values "elec" _ _ (List.mem_singleton.2 rfl) (List.mem_singleton.2 rfl)).values "a" _ _
      (List.mem_singleton.2 rfl) (List.mem_singleton.2 rfl)
    simp at this
  refine ⟨mem, x, y, hx, hy, n1, n3, C82_self _ hx.1, ?_, hd⟩
  rcases C82_numbers_partial (strict := false) (numberCalls_raw 1) (numberCalls_raw 3) hx hy n1 n3 with h | h
  · exact absurd h.2 hd
  · exact h.1

/-! ### Results -/

/-- tables of scenarios and times, as the optimizer makes them -/
def TwoD (a : NdArray) : Prop := a.shape.length = 2

theorem twoD_same (a b : NdArray) (ha : TwoD a) (hb : TwoD b) (h : SameNumbers a b) : a = b :=
  h.2 (Eq.trans ha (Eq.symm hb))

/-- **C82, results.** Results said to be equal have the same data. -/
theorem C82_result_true_partial {r t : Result} (hr : ResultNames r) (ht : ResultNames t)
    (ar : ResultArrays TwoD r) (at' : ResultArrays TwoD t)
    (hx : ResultObject mem x r) (hy : ResultObject mem y t) (he : equal strict x y = .ok true) : SameResultData r t :=
  Result.obj_same twoD_same hr ht ar at' ((sameData_obj hx.2 hy.2).1 (equal_true hx.1 hy.1 he))

/-- **C82, results.** Results said to be different have different data. -/
theorem C82_result_false_partial {r t : Result} (hr : ResultNames r) (ht : ResultNames t)
    (ar : ResultArrays (fun a => a.data ≠ []) r)
    (hx : ResultObject mem x r) (hy : ResultObject mem y t) (he : equal strict x y = .ok false) :
    ¬ SameResultData r t := by
  intro hs
  have := equal_of_same (strict := strict) (x := x) (y := y)
    (by rw [← arrays_erase, hx.2, Result.obj_arrays]; exact ar)
    ((sameData_obj hx.2 hy.2).2 (Result.obj_of_same (fun _ => rfl) hr ht hs))
  rcases this with h1 | h1 <;> rw [he] at h1 <;> cases h1

/-- **C82, results.** Two results with the same data that share no object: `==` is true when all tables have one
cell (one scenario, one time step), and raises `ValueError` otherwise. -/
theorem C82_result_copy_partial {r t : Result} (hr : ResultNames r) (ht : ResultNames t)
    (ar : ResultArrays (fun a => a.data ≠ []) r) (hx : ResultObject mem x r) (hy : ResultObject mem y t)
    (hs : SameResultData r t) (ha : NothingShared x y) :
    (ResultArrays OneElement r → equal strict x y = .ok true) ∧
    (¬ ResultArrays OneElement r → equal strict x y = .error .valueError) := by
  have hyx : SameData Eq x y := (sameData_obj hx.2 hy.2).2 (Result.obj_of_same (fun _ => rfl) hr ht hs)
  constructor
  · intro h1
    refine equal_one_same ?_ hyx
    rw [← arrays_erase, hx.2, Result.obj_arrays]; exact h1
  · intro h1
    have := equal_of_same (strict := strict) (x := x) (y := y)
      (by rw [← arrays_erase, hx.2, Result.obj_arrays]; exact ar) hyx
    refine this.resolve_left fun hq => h1 ?_
    have := equal_apart ha hq
    rwa [← arrays_erase, hx.2, Result.obj_arrays] at this

/-- **C82 refuted for results.** Any result with a table of more than one cell, and no empty table: comparing it
with a copy, for instance with what is read from its own JSON, raises `ValueError`. -/
theorem C82_result_refuted (strict : Bool) (r : Result) (hr : ResultNames r)
    (ar : ResultArrays (fun a => a.data ≠ []) r) (h1 : ¬ ResultArrays OneElement r) :
    ∃ mem x y, ResultObject mem x r ∧ ResultObject mem y r ∧ equal strict x y = .error .valueError := by
  have hf := Result.obj_formed hr
  obtain ⟨mem, x, y, k1, k2, k3, k4, k5⟩ := exists_apart _ _ hf hf
  have hx : ResultObject mem x r := ⟨k1, by rw [k3, Result.obj_erase]⟩
  have hy : ResultObject mem y r := ⟨k2, by rw [k4, Result.obj_erase]⟩
  have hs : SameResultData r r := by
    refine ⟨⟨fun _ => Iff.rfl, ?_⟩, ⟨fun _ => Iff.rfl, ?_⟩, rfl⟩
    · intro k v w hv hw
      cases unique_value hr.networks hv hw
      exact ⟨fun _ => Iff.rfl, fun k' a b ha hb => unique_value (hr.nodes _ hv) ha hb⟩
    · intro k v w hv hw
      cases unique_value hr.converters hv hw
      exact ⟨rfl, ⟨fun _ => Iff.rfl, fun k' a b ha hb => unique_value (hr.sources _ hv) ha hb⟩, rfl⟩
  exact ⟨mem, x, y, hx, hy, (C82_result_copy_partial hr hr ar hx hy hs k5).2 h1⟩

/-- the hypotheses, on a result with one scenario and two time steps -/
theorem demoResult_plain : ResultNames (demoResult "a") ∧ ResultArrays (fun a => a.data ≠ []) (demoResult "a") ∧
    ResultArrays TwoD (demoResult "a") ∧ ¬ ResultArrays OneElement (demoResult "a") := by
  refine ⟨⟨demoResult_ok.networks, demoResult_ok.nodes, demoResult_ok.converters, demoResult_ok.sources⟩,
    ⟨?_, ?_⟩, ⟨?_, ?_⟩, fun h => ?_⟩
  · simp [demoResult]
  · simp [demoResult]
  · simp [demoResult, TwoD]
  · simp [demoResult, TwoD]
  · have := (h.converters ("conv", ⟨"conv", [(["elec", "a"], ⟨[1, 2], [3, 4], rfl⟩)], ⟨[1, 2], [5, 6], rfl⟩⟩)
      (by simp [demoResult])).2
    simp [OneElement] at this

/-! ### Hash -/

/-- **C82, hash.** Equal objects have the same hash, if the first one has one. -/
theorem C82_hash (hs : Hashes) (hx : Live mem x) (hy : Live mem y) (he : equal strict x y = .ok true) {z : ℤ}
    (hz : PyObj.hash hs x = .ok z) : PyObj.hash hs y = .ok z :=
  hash_same (sizeOf x) x y le_rfl hx hy (equal_true hx hy he) z hz

/-- **C82, hash.** Studies and results have no hash: they cannot be put in sets or used as keys. -/
theorem C82_unhashable (hs : Hashes) : (∀ s, StudyObject mem x s → PyObj.hash hs x = .error .typeError) ∧
    (∀ r, ResultObject mem x r → PyObj.hash hs x = .error .typeError) ∧
    (∀ n : InputNode, x.erase = n.obj → PyObj.hash hs x = .error .typeError) ∧
    (∀ c : Converter, x.erase = c.obj → PyObj.hash hs x = .error .typeError) ∧
    ∀ c : OutputConsumption, x.erase = c.obj → PyObj.hash hs x = .error .typeError := by
  refine ⟨fun s h => ?_, fun r h => ?_, fun n h => ?_, fun c h => ?_, fun c h => ?_⟩
  · rw [← hash_erase, h.2]; simp [Study.obj, PyObj.hash, hashEntries, attr]
  · rw [← hash_erase, h.2]; simp [Result.obj, PyObj.hash, hashEntries, attr]
  · rw [← hash_erase, h]; simp [InputNode.obj, PyObj.hash, hashEntries, attr]
  · rw [← hash_erase, h]; simp [Converter.obj, PyObj.hash, hashEntries, attr]
  · rw [← hash_erase, h]; simp [OutputConsumption.obj, PyObj.hash, hashEntries, attr]

/-- a value has a hash exactly when it is a number -/
theorem hash_value (hs : Hashes) (v : NumVal) : (∃ z, PyObj.hash hs v.obj = .ok z) ↔ ∃ q, v.kind = .scalar q := by
  obtain ⟨k, h, n⟩ := v
  cases k <;> simp [NumVal.obj, PyObj.hash, hashEntries, attr, NumKind.cls]

/-- **C82, hash.** A consumption, production, link has a hash exactly when its series are numbers. -/
theorem C82_hashable (hs : Hashes) :
    (∀ c : Consumption, x.erase = c.obj →
      ((∃ z, PyObj.hash hs x = .ok z) ↔ (∃ q, c.quantity.kind = .scalar q) ∧ ∃ q, c.cost.kind = .scalar q)) ∧
    (∀ c : Production, x.erase = c.obj →
      ((∃ z, PyObj.hash hs x = .ok z) ↔ (∃ q, c.quantity.kind = .scalar q) ∧ ∃ q, c.cost.kind = .scalar q)) ∧
    ∀ c : Link, x.erase = c.obj →
      ((∃ z, PyObj.hash hs x = .ok z) ↔ (∃ q, c.quantity.kind = .scalar q) ∧ ∃ q, c.cost.kind = .scalar q) := by
  refine ⟨fun c h => ?_, fun c h => ?_, fun c h => ?_⟩ <;> rw [← hash_erase, h, ← hash_value hs, ← hash_value hs]
  · simp only [Consumption.obj, PyObj.hash, hashEntries, attr]
    cases h1 : PyObj.hash hs c.cost.obj <;> cases h2 : PyObj.hash hs c.quantity.obj <;> simp
  · simp only [Production.obj, PyObj.hash, hashEntries, attr]
    cases h1 : PyObj.hash hs c.cost.obj <;> cases h2 : PyObj.hash hs c.quantity.obj <;> simp
  · simp only [Link.obj, PyObj.hash, hashEntries, attr]
    cases h1 : PyObj.hash hs c.cost.obj <;> cases h2 : PyObj.hash hs c.quantity.obj <;> simp

/-- a link whose quantity and cost are at `1` and `2` -/
def demoLink : PyObj := .inst 0 "Link" [attr "dest" (.str "b"),
  attr "quantity" (.inst 1 "ScalarNumericalValue" [attr "value" (.num 1), attr "horizon" (.num 2), attr "nb_scn" (.num 1)]),
  attr "cost" (.inst 2 "ScalarNumericalValue" [attr "value" (.num 2), attr "horizon" (.num 2), attr "nb_scn" (.num 1)])]

/-- the same link with the cost of the first one, a new quantity, and attributes in another order -/
def demoLink' : PyObj := .inst 3 "Link" [
  attr "cost" (.inst 2 "ScalarNumericalValue" [attr "value" (.num 2), attr "horizon" (.num 2), attr "nb_scn" (.num 1)]),
  attr "quantity" (.inst 4 "ScalarNumericalValue" [attr "value" (.num 1), attr "horizon" (.num 2), attr "nb_scn" (.num 1)]),
  attr "dest" (.str "b")]

/-- the hypotheses of `C82_hash`: two equal links, with a hash -/
example (hs : Hashes) : ∃ mem, Live mem demoLink ∧ Live mem demoLink' ∧ equal true demoLink demoLink' = .ok true ∧
    ∃ z, PyObj.hash hs demoLink = .ok z := by
  refine ⟨fun i => if i = 0 then demoLink.erase else if i = 3 then demoLink'.erase
    else if i = 2 then NumVal.obj ⟨.scalar 2, 2, 1⟩ else NumVal.obj ⟨.scalar 1, 2, 1⟩, ?_, ?_, ?_, ?_⟩
  · simp [demoLink, Live, LiveEntries, attr, NumVal.obj, NumKind.cls, eraseEntries, erase]
  · simp [demoLink', Live, LiveEntries, attr, NumVal.obj, NumKind.cls, eraseEntries, erase]
  · simp [demoLink, demoLink', equal, eqEntries, eq, attr, Dict.get?]
  · simp [demoLink, PyObj.hash, hashEntries, attr]

/-! ### The theorems applied to concrete cases -/

example : ∃ mem x, StudyObject mem x ((start 2 1).run (numberCalls 1)).study ∧
    SameStudyData ((start 2 1).run (numberCalls 1)).study ((start 2 1).run (numberCalls 1)).study := by
  obtain ⟨mem, x, y, hx, hy, n1, n3, e1, e2, hd⟩ := numbers_apart
  exact ⟨mem, x, hx, C82_true_partial (numberCalls_raw 1) (numberCalls_raw 1) hx hx e1⟩

example : ¬ SameStudyData ((start 2 1).run (numberCalls 1)).study ((start 2 1).run (numberCalls 3)).study := by
  obtain ⟨mem, x, y, hx, hy, n1, n3, e1, e2, hd⟩ := numbers_apart
  exact C82_false_partial (numberCalls_raw 1) (by decide) (by decide) hx hy e2

/-- reading the JSON of a study where all is a number gives a copy which compares as equal both ways -/
example : ∃ mem x y, StudyObject mem x ((start 2 1).run (numberCalls 1)).study ∧
    StudyObject mem y ((start 2 1).run (numberCalls 1)).study ∧ equal true x y = .ok true ∧ equal true y x = .ok true := by
  obtain ⟨_, _, _, _, _, n1, _⟩ := numbers_apart
  obtain ⟨mem, x, y, hx, hy, ha⟩ := two_objects 2 1 (numberCalls 1)
  have hj : (Study.fromJson ((start 2 1).run (numberCalls 1)).study.toJson).1 = .ok ((start 2 1).run (numberCalls 1)).study := by
    decide +kernel
  exact ⟨mem, x, y, hx, hy, (C82_json_partial (numberCalls_raw 1) (by decide) (by decide)
    (fun p hp => absurd hp (by
      have : ((start 2 1).run (numberCalls 1)).study.converters = [] := by decide +kernel
      rw [this]; simp)) (by unfold CompleteConverters; decide +kernel) hj hx hy ha).1 n1⟩

/-- comparing the study of a list with a copy raises, and what is raised is `ValueError` -/
example : ∃ x y, ∃ e, equal true x y = .error e ∧ e = .valueError := by
  obtain ⟨mem, x, y, hx, hy, _, he, _⟩ := C82_refuted true
  exact ⟨x, y, _, he, C82_raises he⟩

theorem demoResult_same : SameResultData (demoResult "a") (demoResult "a") := by
  obtain ⟨hr, _, hd, _⟩ := demoResult_plain
  have hf := Result.obj_formed hr
  obtain ⟨mem, x, y, k1, k2, k3, k4, k5⟩ := exists_apart _ _ hf hf
  have hx : ResultObject mem x (demoResult "a") := ⟨k1, by rw [k3, Result.obj_erase]⟩
  exact C82_result_true_partial hr hr hd hd hx hx (C82_self true hx.1)

/-- a result compared with a copy: `ValueError` -/
example : ∃ mem x y, ResultObject mem x (demoResult "a") ∧ ResultObject mem y (demoResult "a") ∧
    equal true x y = .error .valueError := by
  obtain ⟨hr, hn, hd, h1⟩ := demoResult_plain
  have hf := Result.obj_formed hr
  obtain ⟨mem, x, y, k1, k2, k3, k4, k5⟩ := exists_apart _ _ hf hf
  have hx : ResultObject mem x (demoResult "a") := ⟨k1, by rw [k3, Result.obj_erase]⟩
  have hy : ResultObject mem y (demoResult "a") := ⟨k2, by rw [k4, Result.obj_erase]⟩
  exact ⟨mem, x, y, hx, hy, (C82_result_copy_partial hr hr hn hx hy demoResult_same k5).2 h1⟩

/-- a result of one scenario and one time step -/
def cellResult (q : ℚ) : Result :=
  ⟨[("elec", ⟨[("a", ⟨[⟨⟨[1, 1], [q], rfl⟩, "load"⟩], [], [], []⟩)]⟩)], [], ⟨[1], [2], 3, 4⟩⟩

theorem cellResult_names (q : ℚ) : ResultNames (cellResult q) := by
  refine ⟨?_, ?_, ?_, ?_⟩ <;> simp [cellResult]

theorem cellResult_arrays {P : NdArray → Prop} {q : ℚ} (h : P ⟨[1, 1], [q], rfl⟩) : ResultArrays P (cellResult q) := by
  refine ⟨?_, ?_⟩ <;> simp [cellResult, h]

/-- results with another quantity: compared as different, and they are -/
example : ∃ mem x y, ResultObject mem x (cellResult 1) ∧ ResultObject mem y (cellResult 2) ∧
    equal true x y = .ok false ∧ ¬ SameResultData (cellResult 1) (cellResult 2) := by
  obtain ⟨mem, x, y, k1, k2, k3, k4, k5⟩ := exists_apart _ _ (Result.obj_formed (cellResult_names 1))
    (Result.obj_formed (cellResult_names 2))
  have hx : ResultObject mem x (cellResult 1) := ⟨k1, by rw [k3, Result.obj_erase]⟩
  have hy : ResultObject mem y (cellResult 2) := ⟨k2, by rw [k4, Result.obj_erase]⟩
  have he : equal true x y = .ok false := by
    obtain ⟨b, hb⟩ := equal_total (strict := true) (x := x) (y := y)
      (by rw [← arrays_erase, hx.2, Result.obj_arrays]; exact cellResult_arrays (by simp [OneElement]))
      (by rw [← arrays_erase, hy.2, Result.obj_arrays]; exact cellResult_arrays (by simp [OneElement]))
    cases b with
    | false => exact hb
    | true =>
      have hs := C82_result_true_partial (cellResult_names 1) (cellResult_names 2)
        (cellResult_arrays (by simp [TwoD])) (cellResult_arrays (by simp [TwoD])) hx hy hb
      have := (hs.networks.values "elec" _ _ (List.mem_singleton.2 rfl) (List.mem_singleton.2 rfl)).values "a" _ _
        (List.mem_singleton.2 rfl) (List.mem_singleton.2 rfl)
      exact absurd this (by decide +kernel)
  exact ⟨mem, x, y, hx, hy, he, C82_result_false_partial (cellResult_names 1) (cellResult_names 2)
    (cellResult_arrays (by simp)) hx hy he⟩

example (hs : Hashes) : ∃ mem x, StudyObject mem x ((start 2 1).run listCalls).study ∧ PyObj.hash hs x = .error .typeError := by
  obtain ⟨mem, x, _, hx, _⟩ := two_objects 2 1 listCalls
  exact ⟨mem, x, hx, (C82_unhashable hs).1 _ hx⟩

end Hadar.Props
