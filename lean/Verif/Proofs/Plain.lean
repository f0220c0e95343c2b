import Verif.Proofs.Reading

/-!
# Files written by hadar are plain JSON, and what is read can be written again (helper lemmas for C89)
-/

namespace Hadar

open Spec

/-! ### Plain JSON -/

theorem plain_ofNdAux : ∀ (sh : List ℕ) (l : List ℚ), Plain (Json.ofNdAux sh l)
  | [], [] => .null
  | [], q :: _ => .num q
  | n :: sh, l => by
    rw [Json.ofNdAux]
    refine .arr _ fun x hx => ?_
    obtain ⟨r, _, rfl⟩ := List.mem_map.mp hx
    exact plain_ofNdAux sh r

theorem plain_ofNd (a : NdArray) : Plain (Json.ofNd a) := plain_ofNdAux _ _

/-- an object given by its keys and values -/
theorem plain_obj {l : List (String × Json)} (hk : (l.map Prod.fst).Nodup) (h : ∀ p ∈ l, Plain p.2) : Plain (.obj l) := .obj l hk h

theorem plain_series (v : NumVal) : Plain v.toJson := by
  unfold NumVal.toJson
  refine .obj _ (by simp) fun p hp => ?_
  simp only [List.mem_cons, List.not_mem_nil, or_false] at hp
  rcases hp with rfl | rfl | rfl
  · cases v.kind <;> first | exact .num _ | exact plain_ofNd _
  · exact .num _
  · exact .num _

theorem plain_field (c : ConvField) : Plain c.toJson := by
  cases c
  · exact .num 0
  · exact plain_series _

theorem plain_consumption (c : Consumption) : Plain c.toJson := by
  unfold Consumption.toJson
  refine plain_obj (by simp) fun p hp => ?_
  simp only [List.mem_cons, List.not_mem_nil, or_false] at hp
  rcases hp with rfl | rfl | rfl <;> first | exact .str _ | exact plain_series _

theorem plain_production (c : Production) : Plain c.toJson := by
  unfold Production.toJson
  refine plain_obj (by simp) fun p hp => ?_
  simp only [List.mem_cons, List.not_mem_nil, or_false] at hp
  rcases hp with rfl | rfl | rfl <;> first | exact .str _ | exact plain_series _

theorem plain_storage (c : Storage) : Plain c.toJson := by
  unfold Storage.toJson
  refine plain_obj (by simp) fun p hp => ?_
  simp only [List.mem_cons, List.not_mem_nil, or_false] at hp
  rcases hp with rfl | rfl | rfl | rfl | rfl | rfl | rfl <;> first | exact .str _ | exact .num _ | exact plain_series _

theorem plain_link (c : Link) : Plain c.toJson := by
  unfold Link.toJson
  refine plain_obj (by simp) fun p hp => ?_
  simp only [List.mem_cons, List.not_mem_nil, or_false] at hp
  rcases hp with rfl | rfl | rfl <;> first | exact .str _ | exact plain_series _

theorem nodup_ofList {K V : Type} [DecidableEq K] (l : List (K × V)) : ((Dict.ofList l).map Prod.fst).Nodup := by
  have : ∀ (l : List (K × V)) (d : Dict K V), (d.map Prod.fst).Nodup → ((l.foldl (fun d p => d.set p.1 p.2) d).map Prod.fst).Nodup := by
    intro l
    induction l with
    | nil => exact fun d h => h
    | cons p l ih => exact fun d h => ih _ (Dict.nodup_set _ _ h)
  exact this l [] .nil

theorem mem_of_ofList {K V : Type} [DecidableEq K] {l : List (K × V)} {p : K × V} (h : p ∈ Dict.ofList l) : p ∈ l := by
  have key : ∀ (l : List (K × V)) (d : Dict K V), p ∈ l.foldl (fun d p => d.set p.1 p.2) d → p ∈ l ∨ p ∈ d := by
    intro l
    induction l with
    | nil => exact fun d h => .inr h
    | cons q l ih =>
      intro d h
      rcases ih _ h with h | h
      · exact .inl (List.mem_cons_of_mem _ h)
      · rcases Dict.mem_set h with h | h
        · exact .inr h
        · exact .inl (by rw [h]; exact List.mem_cons_self ..)
  rcases key l [] h with h | h
  · exact h
  · simp at h

theorem plain_converter (c : Converter) : Plain c.toJson := by
  unfold Converter.toJson
  refine plain_obj (by simp) fun p hp => ?_
  simp only [List.mem_cons, List.not_mem_nil, or_false] at hp
  rcases hp with rfl | rfl | rfl | rfl | rfl | rfl
  · exact .str _
  · refine plain_obj (nodup_ofList _) fun p hp => ?_
    obtain ⟨q, _, rfl⟩ := List.mem_map.mp (mem_of_ofList hp)
    exact plain_series _
  · exact .str _
  · exact .str _
  · exact plain_field _
  · exact plain_field _

theorem plain_list {α : Type} {f : α → Json} (h : ∀ a, Plain (f a)) (l : List α) : Plain (.arr (l.map f)) := by
  refine .arr _ fun x hx => ?_
  obtain ⟨a, _, rfl⟩ := List.mem_map.mp hx
  exact h a

theorem plain_named {α : Type} {f : α → Json} {l : List (String × α)} (hk : (l.map Prod.fst).Nodup) (h : ∀ p ∈ l, Plain (f p.2)) :
    Plain (.obj (l.map fun p => (p.1, f p.2))) := by
  refine plain_obj (by rwa [List.map_map]) fun x hx => ?_
  obtain ⟨a, ha, rfl⟩ := List.mem_map.mp hx
  exact h a ha

theorem plain_node (x : InputNode) : Plain x.toJson := by
  unfold InputNode.toJson
  refine plain_obj (by simp) fun p hp => ?_
  simp only [List.mem_cons, List.not_mem_nil, or_false] at hp
  rcases hp with rfl | rfl | rfl | rfl
  · exact plain_list plain_consumption _
  · exact plain_list plain_production _
  · exact plain_list plain_storage _
  · exact plain_list plain_link _

theorem plain_network {x : InputNetwork} (hk : (x.nodes.map Prod.fst).Nodup) : Plain x.toJson := by
  unfold InputNetwork.toJson
  refine plain_obj (by simp) fun p hp => ?_
  simp only [List.mem_cons, List.not_mem_nil, or_false] at hp
  subst hp
  exact plain_named hk fun q _ => plain_node _

theorem plain_study {s : Study} (h1 : (s.networks.map Prod.fst).Nodup) (h2 : ∀ p ∈ s.networks, (p.2.nodes.map Prod.fst).Nodup)
    (h3 : (s.converters.map Prod.fst).Nodup) : Plain s.toJson := by
  unfold Study.toJson
  refine plain_obj (by simp) fun p hp => ?_
  simp only [List.mem_cons, List.not_mem_nil, or_false] at hp
  rcases hp with rfl | rfl | rfl | rfl | rfl
  · exact .str _
  · exact plain_named h1 fun q hq => plain_network (h2 q hq)
  · exact plain_named h3 fun q _ => plain_converter _
  · exact .num _
  · exact .num _

theorem plain_outConsumption (c : OutputConsumption) : Plain c.toJson := by
  unfold OutputConsumption.toJson
  refine plain_obj (by simp) fun p hp => ?_
  simp only [List.mem_cons, List.not_mem_nil, or_false] at hp
  rcases hp with rfl | rfl <;> first | exact .str _ | exact plain_ofNd _

theorem plain_outProduction (c : OutputProduction) : Plain c.toJson := by
  unfold OutputProduction.toJson
  refine plain_obj (by simp) fun p hp => ?_
  simp only [List.mem_cons, List.not_mem_nil, or_false] at hp
  rcases hp with rfl | rfl <;> first | exact .str _ | exact plain_ofNd _

theorem plain_outStorage (c : OutputStorage) : Plain c.toJson := by
  unfold OutputStorage.toJson
  refine plain_obj (by simp) fun p hp => ?_
  simp only [List.mem_cons, List.not_mem_nil, or_false] at hp
  rcases hp with rfl | rfl | rfl | rfl <;> first | exact .str _ | exact plain_ofNd _

theorem plain_outLink (c : OutputLink) : Plain c.toJson := by
  unfold OutputLink.toJson
  refine plain_obj (by simp) fun p hp => ?_
  simp only [List.mem_cons, List.not_mem_nil, or_false] at hp
  rcases hp with rfl | rfl <;> first | exact .str _ | exact plain_ofNd _

theorem plain_outConverter (c : OutputConverter) : Plain c.toJson := by
  unfold OutputConverter.toJson
  refine plain_obj (by simp) fun p hp => ?_
  simp only [List.mem_cons, List.not_mem_nil, or_false] at hp
  rcases hp with rfl | rfl | rfl
  · exact .str _
  · refine plain_obj (nodup_ofList _) fun p hp => ?_
    obtain ⟨q, _, rfl⟩ := List.mem_map.mp (mem_of_ofList hp)
    exact plain_ofNd _
  · exact plain_ofNd _

theorem plain_outNode (x : OutputNode) : Plain x.toJson := by
  unfold OutputNode.toJson
  refine plain_obj (by simp) fun p hp => ?_
  simp only [List.mem_cons, List.not_mem_nil, or_false] at hp
  rcases hp with rfl | rfl | rfl | rfl
  · exact plain_list plain_outConsumption _
  · exact plain_list plain_outProduction _
  · exact plain_list plain_outStorage _
  · exact plain_list plain_outLink _

theorem plain_outNetwork {x : OutputNetwork} (hk : (x.nodes.map Prod.fst).Nodup) : Plain x.toJson := by
  unfold OutputNetwork.toJson
  refine plain_obj (by simp) fun p hp => ?_
  simp only [List.mem_cons, List.not_mem_nil, or_false] at hp
  subst hp
  exact plain_named hk fun q _ => plain_outNode _

theorem plain_benchmark (b : Benchmark) : Plain b.toJson := by
  unfold Benchmark.toJson
  refine plain_obj (by simp) fun p hp => ?_
  simp only [List.mem_cons, List.not_mem_nil, or_false] at hp
  rcases hp with rfl | rfl | rfl | rfl
  · exact plain_list .num _
  · exact plain_list .num _
  · exact .num _
  · exact .num _

theorem plain_result {r : Result} (h1 : (r.networks.map Prod.fst).Nodup) (h2 : ∀ p ∈ r.networks, (p.2.nodes.map Prod.fst).Nodup)
    (h3 : (r.converters.map Prod.fst).Nodup) : Plain r.toJson := by
  unfold Result.toJson
  refine plain_obj (by simp) fun p hp => ?_
  simp only [List.mem_cons, List.not_mem_nil, or_false] at hp
  rcases hp with rfl | rfl | rfl
  · exact plain_named h1 fun q hq => plain_outNetwork (h2 q hq)
  · exact plain_named h3 fun q _ => plain_outConverter _
  · exact plain_benchmark _

/-! ### Written again -/

theorem dense_of_nested : ∀ {sh : List ℕ} {d : List ℚ} {j : Json}, Nested sh d j → 0 ∉ sh.dropLast
  | [], _, _, _ => by simp
  | [n], _, _, _ => by simp
  | n :: m :: sh, d, j, h => by
    obtain ⟨l, rows, -, hl, h0, -, hr⟩ := h
    have hn : n ≠ 0 := fun h => by simpa using h0 h
    rw [List.dropLast_cons_cons, List.mem_cons, not_or]
    refine ⟨fun h => hn h.symm, ?_⟩
    cases hr with
    | nil => exact absurd hl.symm hn
    | cons h1 _ => exact dense_of_nested h1

theorem array_rewritten {j : Json} {a : NdArray} (h : IsArray j a) : IsArray (Json.ofNd a) a :=
  (isArray_iff _ _).mpr (Json.toNd_ofNd (dense_of_nested h))

theorem bare_rewritten {h n : ℕ} {j : Json} {v : NumVal} (hs : BareSeries h n j v) : ReadSeries h n v.toJson v := by
  refine .inr ⟨_, rfl, _, List.mem_cons_self .., ?_⟩
  cases hs with
  | number q => exact .number q
  | perTime _ a hj hs => exact .perTime _ a (array_rewritten hj) hs
  | perScenario _ a hj hs => exact .perScenario _ a (array_rewritten hj) hs
  | full _ a hj hs h1 => exact .full _ a (array_rewritten hj) hs h1

theorem series_rewritten {h n : ℕ} {j : Json} {v : NumVal} (hs : ReadSeries h n j v) : ReadSeries h n v.toJson v := by
  rcases hs with hs | ⟨o, rfl, x, -, hs⟩
  · exact bare_rewritten hs
  · exact bare_rewritten hs

theorem forall₂_rewritten {α β : Type} {R R' : β → α → Prop} {f : α → β} (h : ∀ x a, R x a → R' (f a) a) {js : List β} {l : List α}
    (hl : List.Forall₂ R js l) : List.Forall₂ R' (l.map f) l := by
  induction hl with
  | nil => exact .nil
  | cons h1 _ ih => exact .cons (h _ _ h1) ih

theorem elements_rewritten {α : Type} {R : Json → α → Prop} {f : α → Json} (h : ∀ x a, R x a → R (f a) a) {x : Json} {l : List α}
    (hl : Elements R x l) : Elements R (.arr (l.map f)) l := by
  obtain ⟨js, rfl, hl⟩ := hl
  exact ⟨_, rfl, forall₂_rewritten h hl⟩

theorem named_rewritten {α : Type} {R : Json → α → Prop} {f : α → Json} (h : ∀ x a, R x a → R (f a) a) {x : Json} {l : List (String × α)}
    (hl : Named R x l) : Named R (.obj (l.map fun p => (p.1, f p.2))) l := by
  obtain ⟨js, rfl, hl⟩ := hl
  refine ⟨_, rfl, forall₂_rewritten (f := fun p : String × α => (p.1, f p.2)) ?_ hl⟩
  exact fun x a hx => ⟨rfl, h _ _ hx.2⟩

theorem only_literal {o : List (String × Json)} {keys : List String} (h : ∀ k ∈ o.map Prod.fst, k ∈ keys) : Only o keys :=
  fun p hp => h _ (List.mem_map_of_mem hp)

theorem consumption_rewritten {h n : ℕ} {j : Json} {c : Consumption} (hs : SaysConsumption h n j c) : SaysConsumption h n c.toJson c := by
  obtain ⟨o, rfl, -, ⟨_, -, h1⟩, ⟨_, -, h2⟩, -⟩ := hs
  exact ⟨_, rfl, only_literal (by simp), ⟨_, by simp, series_rewritten h1⟩, ⟨_, by simp, series_rewritten h2⟩, .inl (by simp)⟩

theorem production_rewritten {h n : ℕ} {j : Json} {c : Production} (hs : SaysProduction h n j c) : SaysProduction h n c.toJson c := by
  obtain ⟨o, rfl, -, ⟨_, -, h1⟩, ⟨_, -, h2⟩, -⟩ := hs
  exact ⟨_, rfl, only_literal (by simp), ⟨_, by simp, series_rewritten h1⟩, ⟨_, by simp, series_rewritten h2⟩, .inl (by simp)⟩

theorem storage_rewritten {h n : ℕ} {j : Json} {c : Storage} (hs : SaysStorage h n j c) : SaysStorage h n c.toJson c := by
  obtain ⟨o, rfl, -, -, ⟨_, -, h1⟩, ⟨_, -, h2⟩, ⟨_, -, h3⟩, ⟨_, -, h4⟩, -, ⟨_, -, h5⟩⟩ := hs
  exact ⟨_, rfl, only_literal (by simp), ⟨_, by simp, rfl⟩, ⟨_, by simp, series_rewritten h1⟩, ⟨_, by simp, series_rewritten h2⟩,
    ⟨_, by simp, series_rewritten h3⟩, ⟨_, by simp, series_rewritten h4⟩, ⟨_, by simp, rfl⟩, ⟨_, by simp, series_rewritten h5⟩⟩

theorem link_rewritten {h n : ℕ} {j : Json} {c : Link} (hs : SaysLink h n j c) : SaysLink h n c.toJson c := by
  obtain ⟨o, rfl, -, -, ⟨_, -, h1⟩, ⟨_, -, h2⟩⟩ := hs
  exact ⟨_, rfl, only_literal (by simp), ⟨_, by simp, rfl⟩, ⟨_, by simp, series_rewritten h1⟩, ⟨_, by simp, series_rewritten h2⟩⟩

theorem node_rewritten {h n : ℕ} {j : Json} {c : InputNode} (hs : SaysNode h n j c) : SaysNode h n c.toJson c := by
  obtain ⟨o, rfl, -, ⟨_, -, h1⟩, ⟨_, -, h2⟩, ⟨_, -, h3⟩, ⟨_, -, h4⟩⟩ := hs
  exact ⟨_, rfl, only_literal (by simp), ⟨.arr (c.consumptions.map Consumption.toJson), by simp, elements_rewritten (R := SaysConsumption h n) (f := Consumption.toJson) (fun _ _ h => consumption_rewritten h) h1⟩,
    ⟨.arr (c.productions.map Production.toJson), by simp, elements_rewritten (R := SaysProduction h n) (f := Production.toJson) (fun _ _ h => production_rewritten h) h2⟩, ⟨.arr (c.storages.map Storage.toJson), by simp, elements_rewritten (R := SaysStorage h n) (f := Storage.toJson) (fun _ _ h => storage_rewritten h) h3⟩,
    ⟨.arr (c.links.map Link.toJson), by simp, elements_rewritten (R := SaysLink h n) (f := Link.toJson) (fun _ _ h => link_rewritten h) h4⟩⟩

theorem network_rewritten {h n : ℕ} {j : Json} {c : InputNetwork} (hs : SaysNetwork h n j c) : SaysNetwork h n c.toJson c := by
  obtain ⟨o, rfl, -, ⟨_, -, h1⟩⟩ := hs
  exact ⟨_, rfl, only_literal (by simp), ⟨.obj (c.nodes.map fun p => (p.1, InputNode.toJson p.2)), by simp, named_rewritten (R := SaysNode h n) (f := InputNode.toJson) (fun _ _ h => node_rewritten h) h1⟩⟩

theorem parts_join {k : String} {q : List String} (h : Parts k q) : joinKey q = k := by
  rw [← (parts_iff _ _).mp h, joinKey_splitKey]

/-- sources written again: the keys are those of the file -/
theorem sources_rewritten {α : Type} {R : Json → α → Prop} {f : α → Json} (h : ∀ x a, R x a → R (f a) a) {l : List (String × Json)}
    (hn : (l.map Prod.fst).Nodup) {d : List (List String × α)}
    (hl : List.Forall₂ (fun p q => Parts p.1 q.1 ∧ R p.2 q.2) l d) :
    List.Forall₂ (fun p q => Parts p.1 q.1 ∧ R p.2 q.2) (Dict.ofList (d.map fun p => (joinKey p.1, f p.2))) d := by
  have e : (d.map fun p => (joinKey p.1, f p.2)).map Prod.fst = l.map Prod.fst := by
    clear hn
    induction hl with
    | nil => rfl
    | cons h1 _ ih => simp only [List.map_cons, List.cons.injEq] at ih ⊢; exact ⟨parts_join h1.1, ih⟩
  rw [Dict.ofList_of_nodup (by rwa [e])]
  refine forall₂_rewritten (f := fun p : List String × α => (joinKey p.1, f p.2)) ?_ hl
  intro x a hx
  refine ⟨?_, h _ _ hx.2⟩
  have := parts_join hx.1
  simp only
  rw [this]
  exact hx.1

theorem converter_rewritten {h n : ℕ} {j : Json} (hp : Plain j) {c : Converter} (hs : SaysConverter h n j c) :
    SaysConverter h n c.toJson c := by
  obtain ⟨o, cost, max, rfl, e1, e2, -, -, -, -, ⟨_, -, h1⟩, ⟨_, -, h2⟩, ⟨_, hm, l, rfl, h3⟩⟩ := hs
  have hl : (l.map Prod.fst).Nodup := by
    cases hp with
    | obj _ _ ho =>
      have := ho _ hm
      cases this
      assumption
  refine ⟨_, cost, max, rfl, e1, e2, only_literal (by simp), ⟨_, by simp, rfl⟩, ⟨_, by simp, rfl⟩, ⟨_, by simp, rfl⟩,
    ⟨c.cost.toJson, by simp, ?_⟩, ⟨c.max.toJson, by simp, ?_⟩, ⟨.obj (Dict.ofList (c.srcRatios.map fun p => (joinKey p.1, p.2.toJson))), by simp, _, rfl,
      sources_rewritten (R := ReadSeries h n) (f := NumVal.toJson) (fun _ _ h => series_rewritten h) hl h3⟩⟩
  · rw [e1]; exact series_rewritten h1
  · rw [e2]; exact series_rewritten h2

theorem named_again_plain {α : Type} {R : Json → α → Prop} {f : α → Json} (h : ∀ x a, Plain x → R x a → R (f a) a) {x : Json}
    {l : List (String × α)} (hp : Plain x) (hl : Named R x l) : Named R (.obj (l.map fun p => (p.1, f p.2))) l := by
  obtain ⟨js, rfl, hl⟩ := hl
  refine ⟨_, rfl, ?_⟩
  have hj : ∀ p ∈ js, Plain p.2 := by
    cases hp
    assumption
  clear hp
  induction hl with
  | nil => exact .nil
  | cons h1 _ ih =>
    exact .cons ⟨rfl, h _ _ (hj _ (List.mem_cons_self ..)) h1.2⟩ (ih fun p hp => hj p (List.mem_cons_of_mem _ hp))

theorem plain_at {o : List (String × Json)} (hp : Plain (.obj o)) {k : String} {x : Json} (h : (k, x) ∈ o) : Plain x := by
  cases hp with
  | obj _ _ ho => exact ho _ h

theorem named_nodup {α : Type} {R : Json → α → Prop} {x : Json} {l : List (String × α)} (hp : Plain x) (hl : Named R x l) :
    (l.map Prod.fst).Nodup := by
  obtain ⟨js, rfl, hl⟩ := hl
  have : js.map Prod.fst = l.map Prod.fst := by
    clear hp
    induction hl with
    | nil => rfl
    | cons h1 _ ih => rw [List.map_cons, List.map_cons, h1.1, ih]
  rw [← this]
  cases hp
  assumption

theorem named_plain {α : Type} {R : Json → α → Prop} {x : Json} {l : List (String × α)} (hp : Plain x) (hl : Named R x l) {q : String × α}
    (hq : q ∈ l) : ∃ y, Plain y ∧ R y q.2 := by
  obtain ⟨js, rfl, hl⟩ := hl
  have hj : ∀ p ∈ js, Plain p.2 := by
    cases hp
    assumption
  clear hp
  induction hl with
  | nil => cases hq
  | cons h1 _ ih =>
    rcases List.mem_cons.mp hq with rfl | hq
    · exact ⟨_, hj _ (List.mem_cons_self ..), h1.2⟩
    · exact ih hq fun p hp => hj p (List.mem_cons_of_mem _ hp)

theorem network_nodup {h n : ℕ} {j : Json} (hp : Plain j) {c : InputNetwork} (hs : SaysNetwork h n j c) : (c.nodes.map Prod.fst).Nodup := by
  obtain ⟨o, rfl, -, ⟨_, hm, h1⟩⟩ := hs
  exact named_nodup (plain_at hp hm) h1

theorem study_rewritten {j : Json} (hp : Plain j) {s : Study} (hs : SaysStudy j s) : Plain s.toJson ∧ SaysStudy s.toJson s := by
  obtain ⟨o, rfl, -, -, ⟨_, -, h3⟩, ⟨_, m4, h4⟩, ⟨_, m5, h5⟩⟩ := hs
  constructor
  · refine plain_study (named_nodup (plain_at hp m4) h4) ?_ (named_nodup (plain_at hp m5) h5)
    intro q hq
    obtain ⟨y, hy, hs⟩ := named_plain (plain_at hp m4) h4 hq
    exact network_nodup hy hs
  · refine ⟨_, rfl, ⟨_, by simp, rfl⟩, ⟨_, by simp, rfl⟩, ⟨_, by simp, .inl ⟨rfl, ?_⟩⟩, ⟨.obj (s.networks.map fun p => (p.1, InputNetwork.toJson p.2)), by simp, named_rewritten (R := SaysNetwork s.horizon s.nbScn) (f := InputNetwork.toJson) (fun _ _ h => network_rewritten h) h4⟩,
      ⟨.obj (s.converters.map fun p => (p.1, Converter.toJson p.2)), by simp, named_again_plain (R := SaysConverter s.horizon s.nbScn) (f := Converter.toJson) (fun _ _ hp h => converter_rewritten hp h) (plain_at hp m5) h5⟩⟩
    rcases h3 with h3 | h3
    · exact h3.2
    · rw [h3.2]; decide

theorem outConsumption_rewritten {j : Json} {c : OutputConsumption} (hs : SaysOutConsumption j c) : SaysOutConsumption c.toJson c := by
  obtain ⟨o, rfl, -, ⟨_, -, h1⟩, -⟩ := hs
  exact ⟨_, rfl, only_literal (by simp), ⟨_, by simp, array_rewritten h1⟩, .inl (by simp)⟩

theorem outProduction_rewritten {j : Json} {c : OutputProduction} (hs : SaysOutProduction j c) : SaysOutProduction c.toJson c := by
  obtain ⟨o, rfl, -, ⟨_, -, h1⟩, -⟩ := hs
  exact ⟨_, rfl, only_literal (by simp), ⟨_, by simp, array_rewritten h1⟩, .inl (by simp)⟩

theorem outStorage_rewritten {j : Json} {c : OutputStorage} (hs : SaysOutStorage j c) : SaysOutStorage c.toJson c := by
  obtain ⟨o, rfl, -, -, ⟨_, -, h1⟩, ⟨_, -, h2⟩, ⟨_, -, h3⟩⟩ := hs
  exact ⟨_, rfl, only_literal (by simp), ⟨_, by simp, rfl⟩, ⟨_, by simp, array_rewritten h1⟩, ⟨_, by simp, array_rewritten h2⟩,
    ⟨_, by simp, array_rewritten h3⟩⟩

theorem outLink_rewritten {j : Json} {c : OutputLink} (hs : SaysOutLink j c) : SaysOutLink c.toJson c := by
  obtain ⟨o, rfl, -, -, ⟨_, -, h1⟩⟩ := hs
  exact ⟨_, rfl, only_literal (by simp), ⟨_, by simp, rfl⟩, ⟨_, by simp, array_rewritten h1⟩⟩

theorem outNode_rewritten {j : Json} {c : OutputNode} (hs : SaysOutNode j c) : SaysOutNode c.toJson c := by
  obtain ⟨o, rfl, -, ⟨_, -, h1⟩, ⟨_, -, h2⟩, ⟨_, -, h3⟩, ⟨_, -, h4⟩⟩ := hs
  exact ⟨_, rfl, only_literal (by simp), ⟨.arr (c.consumptions.map OutputConsumption.toJson), by simp, elements_rewritten (R := SaysOutConsumption) (f := OutputConsumption.toJson) (fun _ _ h => outConsumption_rewritten h) h1⟩,
    ⟨.arr (c.productions.map OutputProduction.toJson), by simp, elements_rewritten (R := SaysOutProduction) (f := OutputProduction.toJson) (fun _ _ h => outProduction_rewritten h) h2⟩, ⟨.arr (c.storages.map OutputStorage.toJson), by simp, elements_rewritten (R := SaysOutStorage) (f := OutputStorage.toJson) (fun _ _ h => outStorage_rewritten h) h3⟩,
    ⟨.arr (c.links.map OutputLink.toJson), by simp, elements_rewritten (R := SaysOutLink) (f := OutputLink.toJson) (fun _ _ h => outLink_rewritten h) h4⟩⟩

theorem outNetwork_rewritten {j : Json} {c : OutputNetwork} (hs : SaysOutNetwork j c) : SaysOutNetwork c.toJson c := by
  obtain ⟨o, rfl, -, ⟨_, -, h1⟩⟩ := hs
  exact ⟨_, rfl, only_literal (by simp), ⟨.obj (c.nodes.map fun p => (p.1, OutputNode.toJson p.2)), by simp, named_rewritten (R := SaysOutNode) (f := OutputNode.toJson) (fun _ _ h => outNode_rewritten h) h1⟩⟩

theorem outConverter_rewritten {j : Json} (hp : Plain j) {c : OutputConverter} (hs : SaysOutConverter j c) : SaysOutConverter c.toJson c := by
  obtain ⟨o, rfl, -, -, ⟨_, -, h1⟩, ⟨_, hm, l, rfl, h3⟩⟩ := hs
  have hl : (l.map Prod.fst).Nodup := by
    have := plain_at hp hm
    cases this
    assumption
  exact ⟨_, rfl, only_literal (by simp), ⟨_, by simp, rfl⟩, ⟨_, by simp, array_rewritten h1⟩,
    ⟨.obj (Dict.ofList (c.flowSrc.map fun p => (joinKey p.1, Json.ofNd p.2))), by simp, _, rfl,
      sources_rewritten (R := IsArray) (f := Json.ofNd) (fun _ _ h => array_rewritten h) hl h3⟩⟩

theorem benchmark_rewritten (b : Benchmark) : SaysBenchmark b.toJson b :=
  ⟨_, rfl, only_literal (by simp), .inl (by simp), .inl (by simp), .inl (by simp), .inl (by simp)⟩

theorem outNetwork_nodup {j : Json} (hp : Plain j) {c : OutputNetwork} (hs : SaysOutNetwork j c) : (c.nodes.map Prod.fst).Nodup := by
  obtain ⟨o, rfl, -, ⟨_, hm, h1⟩⟩ := hs
  exact named_nodup (plain_at hp hm) h1

theorem result_written {j : Json} (hp : Plain j) {r : Result} (hs : SaysResult j r) : Plain r.toJson ∧ SaysResult r.toJson r := by
  obtain ⟨o, rfl, ⟨_, m4, h4⟩, ⟨_, m5, h5⟩, -⟩ := hs
  constructor
  · refine plain_result (named_nodup (plain_at hp m4) h4) ?_ (named_nodup (plain_at hp m5) h5)
    intro q hq
    obtain ⟨y, hy, hs⟩ := named_plain (plain_at hp m4) h4 hq
    exact outNetwork_nodup hy hs
  · exact ⟨_, rfl, ⟨.obj (r.networks.map fun p => (p.1, OutputNetwork.toJson p.2)), by simp, named_rewritten (R := SaysOutNetwork) (f := OutputNetwork.toJson) (fun _ _ h => outNetwork_rewritten h) h4⟩,
      ⟨.obj (r.converters.map fun p => (p.1, OutputConverter.toJson p.2)), by simp, named_again_plain (R := SaysOutConverter) (f := OutputConverter.toJson) (fun _ _ hp h => outConverter_rewritten hp h) (plain_at hp m5) h5⟩, ⟨_, by simp, benchmark_rewritten _⟩⟩

end Hadar
