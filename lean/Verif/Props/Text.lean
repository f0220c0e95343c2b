import Verif.Proofs.TextRead
import Verif.Props.Dto
import Verif.Props.LPExamples
import Verif.Props.Sensitivity
import Mathlib.Data.Rat.Encodable
import Mathlib.Logic.Equiv.List

/-!
# C110: the text of an object tells its data
-/

namespace Hadar.Props

open Hadar Spec PyObj World

variable {T : Texts} {P : NdArray → Prop} {mem : ℕ → PyObj} {x y : PyObj} {s s' : Study} {r r' : Result}

/-- C110: `str(study)` is the class, then the attributes in alphabetical order: converters, the address of the factory, sizes, networks
(elements of nodes inside) and version -/
theorem C110_study (T : Texts) (hx : StudyObject mem x s) : ∃ i, factoryOf x = some i ∧ text T x = studyText T i s :=
  study_text T hx.2

/-- C110: the same of a result, which has no address inside -/
theorem C110_result (T : Texts) (hx : ResultObject mem x r) : text T x = resultText T r := result_text T hx.2

/-- C110: `repr` of a study, of a result or of another object is its `str` -/
theorem C110_repr (T : Texts) (i : ℕ) (c : String) (d : List (PyKey × PyObj)) : shown T (.inst i c d) = text T (.inst i c d) := by
  simp only [shown, text]

/-- C110 (partial): studies with the same text have the same data, when names have no comma and no closing parenthesis, and arrays are
written in full. Missing: other names (`C110_names_refuted`), and that studies with the same data have the same text (`C110_refuted`). -/
theorem C110_partial (hT : LawfulTexts T P) (hx : StudyObject mem x s) (hy : StudyObject mem y s') (hs : WrittenNames s)
    (hs' : WrittenNames s') (ha : StudyAll (ArrayOf P) s) (ha' : StudyAll (ArrayOf P) s') (h : text T x = text T y) : s = s' := by
  obtain ⟨i, -, hi⟩ := study_text T hx.2
  obtain ⟨j, -, hj⟩ := study_text T hy.2
  exact (study_read hT ⟨hs, ha⟩ ⟨hs', ha'⟩ (by rw [← hi, ← hj, h])).1

/-- C110 (partial): results have the same text exactly when they have the same data in the same order. Missing: as above. -/
theorem C110_result_partial (hT : LawfulTexts T P) (hx : ResultObject mem x r) (hy : ResultObject mem y r') (hr : WrittenResult r)
    (hr' : WrittenResult r') (ha : ResultArrays P r) (ha' : ResultArrays P r') : text T x = text T y ↔ r = r' := by
  rw [result_text T hx.2, result_text T hy.2]
  constructor
  · intro h
    exact (readable_Result hT r r' [] [] ⟨hr, ha⟩ ⟨hr', ha'⟩ (by rw [h])).1
  · rintro rfl; rfl

/-- C110: two objects that are one study have the same text exactly when they have one and the same factory -/
theorem C110_factory (hp : Function.Injective T.place) (hx : StudyObject mem x s) (hy : StudyObject mem y s) :
    text T x = text T y ↔ factoryOf x = factoryOf y := by
  obtain ⟨i, fi, hi⟩ := study_text T hx.2
  obtain ⟨j, fj, hj⟩ := study_text T hy.2
  rw [hi, hj, fi, fj]
  constructor
  · intro h
    have h := congrArg String.toList h
    unfold studyText at h
    simp only [String.toList_append, List.append_assoc] at h
    have h := List.append_cancel_left (List.append_cancel_left (List.append_cancel_left h))
    simp only [← List.append_assoc] at h
    simp only [List.append_left_inj] at h
    rw [hp (String.toList_injective h)]
  · intro h
    rw [Option.some.inj h]

/-- the claim: studies have the same text exactly when they have the same data -/
def C110_claim : Prop := ∀ (T : Texts) (mem : ℕ → PyObj) (x y : PyObj) (h n h' n' : ℕ) (cs cs' : List Call),
  LawfulTexts T (fun _ => True) → (∀ c ∈ cs, RawCall c) → (∀ c ∈ cs', RawCall c) →
  StudyObject mem x ((start h n).run cs).study → StudyObject mem y ((start h' n').run cs').study →
  (text T x = text T y ↔ SameStudyData ((start h n).run cs).study ((start h' n').run cs').study)

theorem ids_factory {Q : ℕ → Prop} {i : ℕ} (h : Ids Q x) (hf : factoryOf x = some i) : Q i := by
  have key : ∀ d : List (PyKey × PyObj), IdsEntries Q d → ∀ p ∈ d, Ids Q p.2 := by
    intro d
    induction d with
    | nil => intro _ p hp; cases hp
    | cons q d ih =>
      intro hd p hp
      rcases List.mem_cons.1 hp with rfl | hp
      · exact hd.1
      · exact ih hd.2 p hp
  cases x with
  | inst j c d =>
    simp only [factoryOf] at hf
    split at hf
    · next k c' e hd =>
      cases hf
      exact (key d h.2 _ (List.mem_of_find?_eq_some hd)).1
    · cases hf
  | _ => cases hf

/-- C110: a copy of a study never has the text of the study: the factory of the copy is somewhere else -/
theorem C110_copy (hp : Function.Injective T.place) (hx : StudyObject mem x s) (hy : StudyObject mem y s) (hn : NothingShared x y) :
    text T x ≠ text T y := by
  obtain ⟨Q, h1, h2⟩ := hn
  rw [Ne, C110_factory hp hx hy]
  intro h
  obtain ⟨i, hi, -⟩ := study_text T hx.2
  exact ids_factory h2 (h ▸ hi) (ids_factory h1 hi)

/-! ### Texts that satisfy what is assumed -/

/-- the character `1`, `n` times -/
def ones (n : ℕ) : String := String.ofList (List.replicate n '1')

theorem ones_inj : Function.Injective ones := by
  intro a b h
  have := congrArg (fun s => s.toList.length) h
  simpa [ones] using this

theorem ones_mem {n : ℕ} {c : Char} (h : c ∈ (ones n).toList) : c = '1' := by
  rw [ones, String.toList_ofList] at h
  exact List.eq_of_mem_replicate h

/-- a quoted string, as Python writes it when there is no double quote inside: `\` before quotes and before `\` -/
def escaped : List Char → List Char
  | [] => ['\'']
  | c :: l => if c = '\'' ∨ c = '\\' then '\\' :: c :: escaped l else c :: escaped l

theorem escaped_read : ∀ (l l' r r' : List Char), escaped l ++ r = escaped l' ++ r' → l = l' := by
  intro l
  induction l with
  | nil =>
    intro l' r r' h
    cases l' with
    | nil => rfl
    | cons c l' =>
      simp only [escaped] at h
      split at h
      · next hc => simp at h
      · next hc => simp only [List.cons_append, List.nil_append, List.cons.injEq] at h; exact absurd (.inl h.1.symm) hc
  | cons c l ih =>
    intro l' r r' h
    cases l' with
    | nil =>
      simp only [escaped] at h
      split at h
      · next hc => simp at h
      · next hc => simp only [List.cons_append, List.nil_append, List.cons.injEq] at h; exact absurd (.inl h.1) hc
    | cons c' l' =>
      simp only [escaped] at h
      split at h <;> split at h
      · simp only [List.cons_append, List.cons.injEq, true_and] at h
        rw [h.1, ih _ _ _ h.2]
      · next hc hc' => simp only [List.cons_append, List.cons.injEq] at h; exact absurd (.inr h.1.symm) hc'
      · next hc hc' => simp only [List.cons_append, List.cons.injEq] at h; exact absurd (.inr h.1) hc
      · simp only [List.cons_append, List.cons.injEq] at h
        rw [h.1, ih _ _ _ h.2]

/-- numbers, arrays and places are counted, strings are quoted -/
noncomputable def counted : Texts where
  num q := ones (Encodable.encode q + 1)
  quote s := String.ofList ('\'' :: escaped s.toList)
  array a := ones (Encodable.encode (a.shape, a.data))
  arrayRepr a := ones (Encodable.encode (a.shape, a.data)) ++ ")"
  place i := ones i

theorem array_ext {a b : NdArray} (h : (a.shape, a.data) = (b.shape, b.data)) : a = b := by
  cases a; cases b
  simp only [Prod.mk.injEq] at h
  obtain ⟨rfl, rfl⟩ := h
  rfl

theorem ones_token (n : ℕ) : Token (ones n) := fun c hc => by rw [ones_mem hc]; decide

theorem counted_lawful : LawfulTexts counted (fun _ => True) where
  num := by
    intro p q h
    have := ones_inj h
    exact Encodable.encode_injective (by omega)
  numPlain := fun q c hc => by rw [ones_mem hc]; decide
  numStart := fun q => ⟨'1', by simp [counted, ones, List.replicate_succ], .inl (by decide)⟩
  array := fun a b _ _ h => array_ext (Encodable.encode_injective (ones_inj h))
  arrayToken := fun a => ones_token _
  quote := by
    intro s s' r r' h
    have h := congrArg String.toList h
    simp only [counted, String.toList_append, String.toList_ofList, List.cons_append, List.cons.injEq, true_and] at h
    exact String.toList_injective (escaped_read _ _ _ _ h)
  quoteStart := fun s => .inl (by simp [counted])
  arrayRepr := by
    intro a b r r' _ _ h
    have h := congrArg String.toList h
    simp only [counted, String.toList_append, List.append_assoc] at h
    exact array_ext (Encodable.encode_injective (ones_inj (token_then (ones_token _) (ones_token _) (.inr (by decide)) h).1))
  place := fun i => ones_token i
  places := ones_inj

/-- C110 refuted: whatever the study, a copy of it has another text -/
theorem C110_refuted (h n : ℕ) (cs : List Call) (hr : ∀ c ∈ cs, RawCall c) : (∃ mem x y, StudyObject mem x ((start h n).run cs).study ∧
    StudyObject mem y ((start h n).run cs).study ∧
    ∀ T : Texts, Function.Injective T.place → text T x ≠ text T y) ∧ ¬ C110_claim := by
  obtain ⟨mem, x, y, hx, hy, ha⟩ := two_objects h n cs
  refine ⟨⟨mem, x, y, hx, hy, fun T hp => C110_copy hp hx hy ha⟩, fun hc => ?_⟩
  have hs := C82_true_partial hr hr hx hx (C82_self false hx.1)
  exact C110_copy counted_lawful.places hx hy ha ((hc counted mem x y h n h n cs cs counted_lawful hr hr hx hy).2 hs)

/-- a study with one consumption, whose name is text -/
def oneLoad (name : String) : List Call :=
  [.studyNetwork "elec", .netNode 0 "a", .nodeConsumption 0 name (.num 10) (.num 5)]

/-- a study with two consumptions -/
def twoLoads : List Call :=
  [.studyNetwork "elec", .netNode 0 "a", .nodeConsumption 0 "day" (.num 10) (.num 5), .nodeConsumption 0 "night" (.num 10) (.num 5)]

/-- the name that makes one consumption look like two -/
def twice (T : Texts) : String :=
  "day, quantity=" ++ valueText T ⟨.scalar 5, 1, 1⟩ ++ "), Consumption(cost=" ++ valueText T ⟨.scalar 10, 1, 1⟩ ++ ", name=night"

/-- C110 refuted: a study with one consumption and a study with two have the same text, however numbers are written -/
theorem C110_names_refuted (T : Texts) (i : ℕ) :
    studyText T i ((start 1 1).run (oneLoad (twice T))).study = studyText T i ((start 1 1).run twoLoads).study ∧
    ((start 1 1).run (oneLoad (twice T))).study ≠ ((start 1 1).run twoLoads).study := by
  have e2 : ((start 1 1).run twoLoads).study = ⟨Study.hadarVersion, [("elec", ⟨[("a",
      ⟨[⟨⟨.scalar 10, 1, 1⟩, ⟨.scalar 5, 1, 1⟩, "day"⟩, ⟨⟨.scalar 10, 1, 1⟩, ⟨.scalar 5, 1, 1⟩, "night"⟩], [], [], []⟩)]⟩)], [], 1, 1⟩ := by
    decide +kernel
  have e1 : ∀ name, ((start 1 1).run (oneLoad name)).study = ⟨Study.hadarVersion, [("elec", ⟨[("a",
      ⟨[⟨⟨.scalar 10, 1, 1⟩, ⟨.scalar 5, 1, 1⟩, name⟩], [], [], []⟩)]⟩)], [], 1, 1⟩ := by
    intro name; with_unfolding_all rfl
  rw [e1, e2]
  refine ⟨?_, by simp⟩
  have key : ", ".intercalate ([(⟨⟨.scalar 10, 1, 1⟩, ⟨.scalar 5, 1, 1⟩, twice T⟩ : Consumption)].map (consumptionText T)) =
      ", ".intercalate ([⟨⟨.scalar 10, 1, 1⟩, ⟨.scalar 5, 1, 1⟩, "day"⟩, ⟨⟨.scalar 10, 1, 1⟩, ⟨.scalar 5, 1, 1⟩, "night"⟩].map
        (consumptionText T)) := by
    generalize h1 : (⟨.scalar 10, 1, 1⟩ : NumVal) = v
    generalize h2 : (⟨.scalar 5, 1, 1⟩ : NumVal) = w
    rw [List.map_cons, List.map_nil, String.intercalate_singleton, List.map_cons, List.map_cons, List.map_nil,
      String.intercalate_cons_cons, String.intercalate_singleton]
    unfold consumptionText twice
    rw [h1, h2]
    apply String.toList_injective
    simp [String.toList_append]
  have node : nodeText T ⟨[⟨⟨.scalar 10, 1, 1⟩, ⟨.scalar 5, 1, 1⟩, twice T⟩], [], [], []⟩ =
      nodeText T ⟨[⟨⟨.scalar 10, 1, 1⟩, ⟨.scalar 5, 1, 1⟩, "day"⟩, ⟨⟨.scalar 10, 1, 1⟩, ⟨.scalar 5, 1, 1⟩, "night"⟩], [], [], []⟩ := by
    unfold nodeText bracket
    rw [key]
  unfold studyText networkText
  simp only [List.map_cons, List.map_nil, node]

/-! ### Concrete cases -/

theorem arrayOf_any {V : NumVal} : ArrayOf (fun _ => True) V := fun _ _ => trivial

theorem studyAll_any (s : Study) : StudyAll (ArrayOf fun _ => True) s :=
  ⟨fun _ _ _ _ => ⟨fun _ _ => ⟨arrayOf_any, arrayOf_any⟩, fun _ _ => ⟨arrayOf_any, arrayOf_any⟩,
    fun _ _ => ⟨arrayOf_any, arrayOf_any, arrayOf_any, arrayOf_any, arrayOf_any⟩, fun _ _ => ⟨arrayOf_any, arrayOf_any⟩⟩,
    fun _ _ => ⟨fun _ _ => arrayOf_any, fun _ _ => arrayOf_any, fun _ _ => arrayOf_any⟩⟩

theorem lpStudy_plain : WrittenNames lpStudy := by
  refine ⟨?_, ?_, ?_⟩ <;> unfold Token <;> decide +kernel

/-- a study with all kinds of elements is told by its text from every other study with plain names -/
example (h n : ℕ) (cs : List Call) (hp : WrittenNames ((start h n).run cs).study) (hne : lpStudy ≠ ((start h n).run cs).study)
    (hx : StudyObject mem x lpStudy) (hy : StudyObject mem y ((start h n).run cs).study) : text counted x ≠ text counted y :=
  fun e => hne (C110_partial counted_lawful hx hy lpStudy_plain hp (studyAll_any _) (studyAll_any _) e)

/-- and its copies have other texts -/
example : ∃ mem x y, StudyObject mem x lpStudy ∧ StudyObject mem y lpStudy ∧ text counted x ≠ text counted y ∧
    factoryOf x ≠ factoryOf y := by
  obtain ⟨mem, x, y, hx, hy, ha⟩ := two_objects 1 1 lpCalls
  have := C110_copy counted_lawful.places hx hy ha
  exact ⟨mem, x, y, hx, hy, this, fun h => this ((C110_factory counted_lawful.places hx hy).2 h)⟩

/-- two results -/
example : ∃ mem x y, ResultObject mem x (cellResult 1) ∧ ResultObject mem y (cellResult 2) ∧ text counted x ≠ text counted y := by
  obtain ⟨mem, x, y, k1, k2, k3, k4, k5⟩ := exists_apart _ _ (Result.obj_formed (cellResult_names 1))
    (Result.obj_formed (cellResult_names 2))
  have hx : ResultObject mem x (cellResult 1) := ⟨k1, by rw [k3, Result.obj_erase]⟩
  have hy : ResultObject mem y (cellResult 2) := ⟨k2, by rw [k4, Result.obj_erase]⟩
  have plain : ∀ q, WrittenResult (cellResult q) := by
    intro q
    refine ⟨?_, ?_⟩
    · simp [cellResult, Token]
    · simp [cellResult]
  refine ⟨mem, x, y, hx, hy, fun e => ?_⟩
  have := (C110_result_partial counted_lawful hx hy (plain 1) (plain 2) (cellResult_arrays trivial) (cellResult_arrays trivial)).1 e
  exact absurd this (by decide +kernel)

set_option maxRecDepth 4000 in
/-- the text of a result -/
example (T : Texts) (hx : ResultObject mem x (cellResult 5)) : text T x =
    "Result(benchmark=Benchmark(mapper=" ++ T.num 3 ++ ", modeler=[" ++ T.num 1 ++ "], solver=[" ++ T.num 2 ++ "], total=" ++ T.num 4 ++
    "), converters={}, networks={" ++ T.quote "elec" ++ ": OutputNetwork(nodes={" ++ T.quote "a" ++
    ": OutputNode(consumptions=[OutputConsumption(name=load, quantity=" ++ T.array ⟨[1, 1], [5], rfl⟩ ++
    ")], links=[], productions=[], storages=[])})})" := by
  rw [C110_result T hx]
  unfold resultText benchmarkText outputNetworkText outputNodeText outputConsumptionText brace bracket cellResult
  apply String.toList_injective
  simp [String.toList_append]

example : ∃ mem x y, StudyObject mem x lpStudy ∧ StudyObject mem y lpStudy ∧
    ∀ T : Texts, Function.Injective T.place → text T x ≠ text T y :=
  (C110_refuted 1 1 lpCalls (rawCalls_of (by decide +kernel))).1

end Hadar.Props
