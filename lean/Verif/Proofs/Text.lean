import Verif.Spec.Text

/-!
# Texts of objects: they are what `Spec/Text` says, and can be read back
-/

namespace Hadar

open Spec PyObj

/-! ### `", ".join` -/

theorem commaJoined_eq (l : List String) : commaJoined l = ", ".intercalate l := by
  induction l with
  | nil => rfl
  | cons a l ih =>
    cases l with
    | nil => rfl
    | cons b l =>
      rw [commaJoined, ih, String.intercalate_cons_cons]

/-! ### Identities matter for factories only -/

mutual
/-- there is no factory in the object -/
def NoFactory : PyObj → Prop
  | .num _ => True
  | .str _ => True
  | .arr _ _ => True
  | .list _ l => NoFactoryItems l
  | .dict _ d => NoFactoryEntries d
  | .inst _ c d => c ≠ "NumericalValueFactory" ∧ NoFactoryEntries d
def NoFactoryItems : List PyObj → Prop
  | [] => True
  | x :: l => NoFactory x ∧ NoFactoryItems l
def NoFactoryEntries : List (PyKey × PyObj) → Prop
  | [] => True
  | (_, x) :: d => NoFactory x ∧ NoFactoryEntries d
end

mutual
theorem text_erase (T : Texts) : ∀ x : PyObj, NoFactory x.erase → text T x = text T x.erase
  | .num _, _ => rfl
  | .str _, _ => rfl
  | .arr _ _, _ => rfl
  | .list _ l, h => by
    simp only [erase, NoFactory] at h
    simp only [erase, text, reprItems_erase T l h]
  | .dict _ d, h => by
    simp only [erase, NoFactory] at h
    simp only [erase, text, reprEntries_erase T d h]
  | .inst _ c d, h => by
    simp only [erase, NoFactory] at h
    simp only [erase, text, if_neg h.1, textAttrs_erase T d h.2]
theorem shown_erase (T : Texts) : ∀ x : PyObj, NoFactory x.erase → shown T x = shown T x.erase
  | .num _, _ => rfl
  | .str _, _ => rfl
  | .arr _ _, _ => rfl
  | .list _ l, h => by
    simp only [erase, NoFactory] at h
    simp only [erase, shown, reprItems_erase T l h]
  | .dict _ d, h => by
    simp only [erase, NoFactory] at h
    simp only [erase, shown, reprEntries_erase T d h]
  | .inst _ c d, h => by
    simp only [erase, NoFactory] at h
    simp only [erase, shown, if_neg h.1, textAttrs_erase T d h.2]
theorem reprItems_erase (T : Texts) : ∀ l : List PyObj, NoFactoryItems (eraseItems l) → reprItems T l = reprItems T (eraseItems l)
  | [], _ => rfl
  | x :: l, h => by
    simp only [eraseItems, NoFactoryItems] at h
    simp only [eraseItems, reprItems, ← shown_erase T x h.1, ← reprItems_erase T l h.2]
theorem reprEntries_erase (T : Texts) : ∀ d : List (PyKey × PyObj), NoFactoryEntries (eraseEntries d) →
    reprEntries T d = reprEntries T (eraseEntries d)
  | [], _ => rfl
  | (k, x) :: d, h => by
    simp only [eraseEntries, NoFactoryEntries] at h
    simp only [eraseEntries, reprEntries, ← shown_erase T x h.1, ← reprEntries_erase T d h.2]
theorem textAttrs_erase (T : Texts) : ∀ d : List (PyKey × PyObj), NoFactoryEntries (eraseEntries d) →
    textAttrs T d = textAttrs T (eraseEntries d)
  | [], _ => rfl
  | (k, x) :: d, h => by
    simp only [eraseEntries, NoFactoryEntries] at h
    simp only [eraseEntries, textAttrs, ← text_erase T x h.1, ← textAttrs_erase T d h.2]
end

theorem noFactoryItems_map {α : Type} {f : α → PyObj} {l : List α} (h : ∀ x ∈ l, NoFactory (f x)) : NoFactoryItems (l.map f) := by
  induction l with
  | nil => trivial
  | cons x l ih => exact ⟨h x (by simp), ih fun y hy => h y (by simp [hy])⟩

theorem noFactoryEntries_map {α : Type} {f : α → PyKey × PyObj} {l : List α} (h : ∀ x ∈ l, NoFactory (f x).2) :
    NoFactoryEntries (l.map f) := by
  induction l with
  | nil => trivial
  | cons x l ih => exact ⟨h x (by simp), ih fun y hy => h y (by simp [hy])⟩

theorem reprItems_map {α : Type} (T : Texts) {f : α → PyObj} {g : α → String} (h : ∀ x, shown T (f x) = g x) (l : List α) :
    reprItems T (l.map f) = l.map g := by
  induction l with
  | nil => rfl
  | cons x l ih => simp only [List.map_cons, reprItems, ih, h]

theorem reprEntries_map {α : Type} (T : Texts) {f : α → PyKey × PyObj} {g : α → String}
    (h : ∀ x, T.key (f x).1 ++ ": " ++ shown T (f x).2 = g x) (l : List α) : reprEntries T (l.map f) = l.map g := by
  induction l with
  | nil => rfl
  | cons x l ih => simp only [List.map_cons, reprEntries, ih, h]

theorem tuple_text (T : Texts) (l : List String) : T.tuple l = tupleText T l := by
  match l with
  | [] => simp [Texts.tuple, tupleText, commaJoined_eq]
  | [a] => 
    simp only [Texts.tuple, tupleText, commaJoined, List.map_cons, List.map_nil, List.length_singleton, if_true, String.append_assoc]
    rfl
  | a :: b :: l => simp [Texts.tuple, tupleText, commaJoined_eq]


/-! ### Texts of each class -/

/-- evaluate the text of an object of a known class -/
macro "write_text" ds:Lean.Parser.Tactic.simpLemma,* : tactic => `(tactic| (
  simp only [PyObj.shown, PyObj.text, textAttrs, PyObj.attr, $ds,*]
  simp [List.insertionSort, List.orderedInsert, keyBefore, commaJoined, Texts.attrName]))

/-- compare two texts -/
macro "same_text" : tactic => `(tactic| (apply String.toList_injective; simp [String.toList_append]))

theorem NumVal.text_obj (T : Texts) (v : NumVal) : text T v.obj = valueText T v := by
  obtain ⟨k, h, n⟩ := v
  have key : ∀ (c : String) (x : PyObj), c ≠ "NumericalValueFactory" →
      text T (.inst 0 c [attr "value" x, attr "horizon" (.num h), attr "nb_scn" (.num n)]) =
        c ++ ("(horizon=" ++ T.num h ++ ", nb_scn=" ++ T.num n ++ ", value=") ++ text T x ++ ")" := by
    intro c x hc
    simp only [PyObj.text, if_neg hc, textAttrs, PyObj.attr]
    simp [List.insertionSort, List.orderedInsert, keyBefore, commaJoined, Texts.attrName]
    same_text
  cases k
  · exact key "ScalarNumericalValue" _ (by decide)
  · exact key "MatrixNumericalValue" _ (by decide)
  · exact key "RowNumericValue" _ (by decide)
  · exact key "ColumnNumericValue" _ (by decide)

theorem NumVal.shown_obj (T : Texts) (v : NumVal) : shown T v.obj = valueText T v := NumVal.text_obj T v

theorem ConvField.text_obj (T : Texts) (c : ConvField) : text T c.obj = fieldText T c := by
  cases c
  · rfl
  · exact NumVal.text_obj T _

theorem Consumption.text_obj (T : Texts) (c : Consumption) : shown T c.obj = consumptionText T c := by
  write_text Consumption.obj, NumVal.text_obj
  unfold consumptionText
  same_text

theorem Production.text_obj (T : Texts) (c : Production) : shown T c.obj = productionText T c := by
  write_text Production.obj, NumVal.text_obj
  unfold productionText
  same_text

theorem Storage.text_obj (T : Texts) (c : Storage) : shown T c.obj = storageText T c := by
  write_text Storage.obj, NumVal.text_obj
  unfold storageText
  same_text

theorem Link.text_obj (T : Texts) (c : Link) : shown T c.obj = linkText T c := by
  write_text Link.obj, NumVal.text_obj
  unfold linkText
  same_text

theorem entries_of_sources {α : Type} (T : Texts) {f : α → PyObj} {g : α → String} (h : ∀ x, shown T (f x) = g x)
    (l : List (List String × α)) : reprEntries T (l.map fun p => (PyKey.tup p.1, f p.2)) = l.map fun p => tupleText T p.1 ++ ": " ++ g p.2 :=
  reprEntries_map T (fun p => by rw [Texts.key, tuple_text, h]) l

theorem entries_of_names {α : Type} (T : Texts) {f : α → PyObj} {g : α → String} (h : ∀ x, shown T (f x) = g x)
    (l : List (String × α)) : reprEntries T (l.map fun p => (PyKey.str p.1, f p.2)) = l.map fun p => T.quote p.1 ++ ": " ++ g p.2 :=
  reprEntries_map T (fun p => by rw [Texts.key, h]) l

theorem Converter.text_obj (T : Texts) (c : Converter) : shown T c.obj = converterText T c := by
  write_text Converter.obj, ConvField.text_obj, entries_of_sources T (NumVal.shown_obj T), commaJoined_eq
  unfold converterText
  unfold brace
  same_text

theorem InputNode.text_obj (T : Texts) (c : InputNode) : shown T c.obj = nodeText T c := by
  write_text InputNode.obj, reprItems_map T (Consumption.text_obj T), reprItems_map T (Production.text_obj T), reprItems_map T (Storage.text_obj T), reprItems_map T (Link.text_obj T), commaJoined_eq
  unfold nodeText
  unfold bracket
  same_text

theorem InputNetwork.text_obj (T : Texts) (c : InputNetwork) : shown T c.obj = networkText T c := by
  write_text InputNetwork.obj, entries_of_names T (InputNode.text_obj T), commaJoined_eq
  unfold networkText
  unfold brace
  same_text

theorem OutputConsumption.text_obj (T : Texts) (c : OutputConsumption) : shown T c.obj = outputConsumptionText T c := by
  write_text OutputConsumption.obj, String.append_assoc
  unfold outputConsumptionText
  same_text

theorem OutputProduction.text_obj (T : Texts) (c : OutputProduction) : shown T c.obj = outputProductionText T c := by
  write_text OutputProduction.obj, String.append_assoc
  unfold outputProductionText
  same_text

theorem OutputStorage.text_obj (T : Texts) (c : OutputStorage) : shown T c.obj = outputStorageText T c := by
  write_text OutputStorage.obj, String.append_assoc
  unfold outputStorageText
  same_text

theorem OutputLink.text_obj (T : Texts) (c : OutputLink) : shown T c.obj = outputLinkText T c := by
  write_text OutputLink.obj, String.append_assoc
  unfold outputLinkText
  same_text

theorem OutputConverter.text_obj (T : Texts) (c : OutputConverter) : shown T c.obj = outputConverterText T c := by
  write_text OutputConverter.obj, entries_of_sources T (f := fun a => PyObj.arr 0 a) (g := T.arrayRepr) (fun _ => rfl), commaJoined_eq
  unfold outputConverterText
  unfold brace
  same_text

theorem OutputNode.text_obj (T : Texts) (c : OutputNode) : shown T c.obj = outputNodeText T c := by
  write_text OutputNode.obj, reprItems_map T (OutputConsumption.text_obj T), reprItems_map T (OutputProduction.text_obj T), reprItems_map T (OutputStorage.text_obj T), reprItems_map T (OutputLink.text_obj T), commaJoined_eq
  unfold outputNodeText
  unfold bracket
  same_text

theorem OutputNetwork.text_obj (T : Texts) (c : OutputNetwork) : shown T c.obj = outputNetworkText T c := by
  write_text OutputNetwork.obj, entries_of_names T (OutputNode.text_obj T), commaJoined_eq
  unfold outputNetworkText
  unfold brace
  same_text

theorem Benchmark.text_obj (T : Texts) (c : Benchmark) : shown T c.obj = benchmarkText T c := by
  write_text Benchmark.obj, reprItems_map T (f := PyObj.num) (g := T.num) (fun _ => rfl), commaJoined_eq
  unfold benchmarkText
  unfold bracket
  same_text

theorem benchmark_text (T : Texts) (b : Benchmark) : text T b.obj = benchmarkText T b := Benchmark.text_obj T b

theorem Result.text_obj (T : Texts) (c : Result) : text T c.obj = resultText T c := by
  write_text Result.obj, benchmark_text, entries_of_names T (OutputNetwork.text_obj T), entries_of_names T (OutputConverter.text_obj T), commaJoined_eq
  unfold resultText
  unfold brace
  same_text

/-! ### No factory except that of the study -/

theorem NumVal.noFactory (v : NumVal) : NoFactory v.obj := by
  obtain ⟨k, h, n⟩ := v
  cases k <;> simp [NumVal.obj, NoFactory, NoFactoryEntries, attr, NumKind.cls]

theorem ConvField.noFactory (c : ConvField) : NoFactory c.obj := by
  cases c
  · trivial
  · exact NumVal.noFactory _

theorem Converter.noFactory (c : Converter) : NoFactory c.obj := by
  simp only [Converter.obj, NoFactory, NoFactoryEntries, attr, ConvField.noFactory, and_true, true_and]
  exact ⟨by decide, noFactoryEntries_map fun p _ => NumVal.noFactory _⟩

theorem InputNode.noFactory (n : InputNode) : NoFactory n.obj := by
  simp only [InputNode.obj, NoFactory, NoFactoryEntries, attr, and_true]
  refine ⟨by decide, noFactoryItems_map ?_, noFactoryItems_map ?_, noFactoryItems_map ?_, noFactoryItems_map ?_⟩ <;> intro c _ <;>
    simp [Consumption.obj, Production.obj, Storage.obj, Link.obj, NoFactory, NoFactoryEntries, attr, NumVal.noFactory]

theorem InputNetwork.noFactory (n : InputNetwork) : NoFactory n.obj := by
  simp only [InputNetwork.obj, NoFactory, NoFactoryEntries, attr, and_true]
  exact ⟨by decide, noFactoryEntries_map fun p _ => InputNode.noFactory _⟩

theorem Result.noFactory (r : Result) : NoFactory r.obj := by
  simp only [Result.obj, NoFactory, NoFactoryEntries, attr, and_true]
  refine ⟨by decide, noFactoryEntries_map fun p _ => ?_, noFactoryEntries_map fun p _ => ?_, ?_⟩
  · simp only [OutputNetwork.obj, NoFactory, NoFactoryEntries, attr, and_true]
    refine ⟨by decide, noFactoryEntries_map fun q _ => ?_⟩
    simp only [OutputNode.obj, NoFactory, NoFactoryEntries, attr, and_true]
    refine ⟨by decide, noFactoryItems_map ?_, noFactoryItems_map ?_, noFactoryItems_map ?_, noFactoryItems_map ?_⟩ <;> intro c _ <;>
      simp [OutputConsumption.obj, OutputProduction.obj, OutputStorage.obj, OutputLink.obj, NoFactory, NoFactoryEntries, attr]
  · simp only [OutputConverter.obj, NoFactory, NoFactoryEntries, attr, and_true, true_and]
    exact ⟨by decide, noFactoryEntries_map fun p _ => trivial⟩
  · simp only [Benchmark.obj, NoFactory, NoFactoryEntries, attr, and_true]
    exact ⟨by decide, noFactoryItems_map fun p _ => trivial, noFactoryItems_map fun p _ => trivial⟩

/-- the text of an object that is a result -/
theorem result_text (T : Texts) {x : PyObj} {r : Result} (h : x.erase = r.obj) : text T x = resultText T r := by
  rw [text_erase T x (h ▸ Result.noFactory r), h, Result.text_obj]

theorem eraseEntries_cons {d : List (PyKey × PyObj)} {k : PyKey} {y : PyObj} {e : List (PyKey × PyObj)}
    (h : eraseEntries d = (k, y) :: e) : ∃ x d', d = (k, x) :: d' ∧ x.erase = y ∧ eraseEntries d' = e := by
  cases d with
  | nil => simp [eraseEntries] at h
  | cons p d =>
    obtain ⟨k', x⟩ := p
    simp only [eraseEntries, List.cons.injEq, Prod.mk.injEq] at h
    exact ⟨x, d, by rw [h.1.1], h.1.2, h.2⟩

theorem erase_inst {x : PyObj} {c : String} {e : List (PyKey × PyObj)} (h : x.erase = .inst 0 c e) :
    ∃ i d, x = .inst i c d ∧ eraseEntries d = e := by
  cases x with
  | inst i c' d =>
    simp only [erase, PyObj.inst.injEq, true_and] at h
    exact ⟨i, d, by rw [h.1], h.2⟩
  | _ => simp [erase] at h

/-- the text of an object that is a study -/
theorem study_text (T : Texts) {x : PyObj} {s : Study} (h : x.erase = s.obj) :
    ∃ i, factoryOf x = some i ∧ text T x = studyText T i s := by
  obtain ⟨i, d, rfl, hd⟩ := erase_inst h
  obtain ⟨x1, d1, rfl, h1, hd⟩ := eraseEntries_cons hd
  obtain ⟨x2, d2, rfl, h2, hd⟩ := eraseEntries_cons hd
  obtain ⟨x3, d3, rfl, h3, hd⟩ := eraseEntries_cons hd
  obtain ⟨x4, d4, rfl, h4, hd⟩ := eraseEntries_cons hd
  obtain ⟨x5, d5, rfl, h5, hd⟩ := eraseEntries_cons hd
  obtain ⟨x6, d6, rfl, h6, hd⟩ := eraseEntries_cons hd
  cases d6 with
  | cons p d => obtain ⟨k, y⟩ := p; simp [eraseEntries] at hd
  | nil =>
    obtain ⟨j, d7, rfl, -⟩ := erase_inst h6
    refine ⟨j, rfl, ?_⟩
    have e1 : text T x1 = s.version := by rw [text_erase T x1 (by rw [h1]; trivial), h1]; rfl
    have e2 : text T x2 = brace (s.networks.map fun p => T.quote p.1 ++ ": " ++ networkText T p.2) := by
      have : NoFactory (.dict 0 (s.networks.map fun p => (.str p.1, p.2.obj))) :=
        noFactoryEntries_map fun p _ => InputNetwork.noFactory _
      rw [text_erase T x2 (by rw [h2]; exact this), h2, text, entries_of_names T (InputNetwork.text_obj T), commaJoined_eq]; rfl
    have e3 : text T x3 = brace (s.converters.map fun p => T.quote p.1 ++ ": " ++ converterText T p.2) := by
      have : NoFactory (.dict 0 (s.converters.map fun p => (.str p.1, p.2.obj))) :=
        noFactoryEntries_map fun p _ => Converter.noFactory _
      rw [text_erase T x3 (by rw [h3]; exact this), h3, text, entries_of_names T (Converter.text_obj T), commaJoined_eq]; rfl
    have e4 : text T x4 = T.num s.horizon := by rw [text_erase T x4 (by rw [h4]; trivial), h4]; rfl
    have e5 : text T x5 = T.num s.nbScn := by rw [text_erase T x5 (by rw [h5]; trivial), h5]; rfl
    have e6 : text T (.inst j "NumericalValueFactory" d7) = T.place j := by simp only [PyObj.text, if_true]
    simp only [PyObj.text, textAttrs, PyObj.attr] at *
    rw [e1, e2, e3, e4, e5, e6]
    simp [List.insertionSort, List.orderedInsert, keyBefore, commaJoined, Texts.attrName]
    unfold studyText
    same_text

end Hadar
