import Verif.Spec.Message
import Verif.Proofs.Reading

/-! # Lemmas on the grammar of the answers of workers -/

set_option linter.unusedSimpArgs false

namespace Hadar

open Spec

theorem ratOr_bind {γ : Type} {b : γ} {o : List (String × Json)} (hk : (o.map Prod.fst).Nodup)
    {k : String} {d : ℚ} {m : ℚ → PyM Json γ} :
    ((Json.ratOr k d >>= m) (.obj o)).1 = .ok b ↔ ∃ q, NumOr o k d q ∧ (m q (.obj o)).1 = .ok b := by
  rw [PyM.bind_run]
  simp only [NumOr, mem_iff_get? hk, Json.ratOr]
  cases h : Dict.get? o k with
  | none => simp
  | some x =>
    have hn' : ¬ ∀ y, ¬ some x = some y := fun hh => hh x rfl
    simp only [Option.some.injEq, hn', false_and, or_false] at hn' ⊢
    simp only [hn', false_and, or_false]
    cases hx : x.asNum with
    | error e =>
      simp only [reduceCtorEq, false_iff]
      rintro ⟨q, rfl, _⟩
      simp [Json.asNum] at hx
    | ok q =>
      have := asNum_ok.mp hx
      subst this
      simp

theorem strOr_bind' {γ : Type} {b : γ} {o : List (String × Json)} (hk : (o.map Prod.fst).Nodup)
    {k d : String} {m : String → PyM Json γ} :
    ((Json.strOr k d >>= m) (.obj o)).1 = .ok b ↔ ∃ s, TextOr o k d s ∧ (m s (.obj o)).1 = .ok b := by
  rw [strOr_bind]
  simp only [textOr_iff hk]

theorem mem_keys {o : List (String × Json)} {k : String} {x : Json} (h : (k, x) ∈ o) : k ∈ Dict.keys o :=
  List.mem_map.2 ⟨_, h, rfl⟩

theorem NumOr.at {o : List (String × Json)} {k : String} {d q : ℚ} (h : NumOr o k d q) (hk : k ∈ Dict.keys o) : NumAt o k q := by
  rcases h with h | ⟨h, -⟩
  · exact h
  · obtain ⟨p, hp, rfl⟩ := List.mem_map.1 hk
    exact absurd hp (h p.2)

theorem TextOr.at {o : List (String × Json)} {k d q : String} (h : TextOr o k d q) (hk : k ∈ Dict.keys o) : TextAt o k q := by
  rcases h with h | ⟨h, -⟩
  · exact h
  · obtain ⟨p, hp, rfl⟩ := List.mem_map.1 hk
    exact absurd hp (h p.2)

theorem lpConsumption_says {j : Json} (hp : Plain j) {c : LPConsumption ℚ} :
    (LPConsumption.fromJson j).1 = .ok c ↔ SaysLPConsumption j c := by
  unfold LPConsumption.fromJson SaysLPConsumption
  cases hp with
  | obj o hk ho =>
    simp only [kwargs_bind, strOr_bind' hk, ratOr_bind hk, PyM.pure_run, Except.ok.injEq, Json.obj.injEq]
    constructor
    · rintro ⟨h1, h2, c, h3, q, h4, s, h5, v, h6, rfl⟩
      exact ⟨o, rfl, only_iff.mpr h1, NumOr.at h4 (h2 _ (by simp)), NumOr.at h6 (h2 _ (by simp)), h3, h5⟩
    · rintro ⟨o', rfl, h1, h2, h3, h4, h5⟩
      exact ⟨only_iff.mp h1, by simp [mem_keys h2, mem_keys h3], _, h4, _, .inl h2, _, h5, _, .inl h3, rfl⟩
  | _ =>
    constructor
    · intro hh
      exact absurd hh (kwargs_bind_not (by simp))
    · rintro ⟨o, ho, _⟩
      cases ho

theorem lpProduction_says {j : Json} (hp : Plain j) {c : LPProduction ℚ} :
    (LPProduction.fromJson j).1 = .ok c ↔ SaysLPProduction j c := by
  unfold LPProduction.fromJson SaysLPProduction
  cases hp with
  | obj o hk ho =>
    simp only [kwargs_bind, strOr_bind' hk, ratOr_bind hk, PyM.pure_run, Except.ok.injEq, Json.obj.injEq]
    constructor
    · rintro ⟨h1, h2, s, h5, c, h3, v, h6, q, h4, rfl⟩
      exact ⟨o, rfl, only_iff.mpr h1, NumOr.at h4 (h2 _ (by simp)), NumOr.at h6 (h2 _ (by simp)), h3, h5⟩
    · rintro ⟨o', rfl, h1, h2, h3, h4, h5⟩
      exact ⟨only_iff.mp h1, by simp [mem_keys h2, mem_keys h3], _, h5, _, h4, _, .inl h3, _, .inl h2, rfl⟩
  | _ =>
    constructor
    · intro hh
      exact absurd hh (kwargs_bind_not (by simp))
    · rintro ⟨o, ho, _⟩
      cases ho

theorem lpStorage_says {j : Json} (hp : Plain j) {c : LPStorage ℚ} :
    (LPStorage.fromJson j).1 = .ok c ↔ SaysLPStorage j c := by
  unfold LPStorage.fromJson SaysLPStorage
  cases hp with
  | obj o hk ho =>
    simp only [kwargs_bind, strOr_bind' hk, ratOr_bind hk, PyM.pure_run, Except.ok.injEq, Json.obj.injEq]
    constructor
    · rintro ⟨h1, h2, s, a0, q1, a1, q2, a2, q3, a3, q4, a4, q5, a5, q6, a6, q7, a7, q8, a8, q9, a9, rfl⟩
      exact ⟨o, rfl, only_iff.mpr h1, TextOr.at a0 (h2 _ (by simp)), NumOr.at a1 (h2 _ (by simp)), NumOr.at a2 (h2 _ (by simp)),
        NumOr.at a3 (h2 _ (by simp)), NumOr.at a4 (h2 _ (by simp)), NumOr.at a5 (h2 _ (by simp)), NumOr.at a6 (h2 _ (by simp)), a7, a8, a9⟩
    · rintro ⟨o', rfl, h1, a0, a1, a2, a3, a4, a5, a6, a7, a8, a9⟩
      exact ⟨only_iff.mp h1, by simp [mem_keys a0, mem_keys a1, mem_keys a2, mem_keys a3, mem_keys a4, mem_keys a5, mem_keys a6],
        _, .inl a0, _, .inl a1, _, .inl a2, _, .inl a3, _, .inl a4, _, .inl a5, _, .inl a6, _, a7, _, a8, _, a9, rfl⟩
  | _ =>
    constructor
    · intro hh
      exact absurd hh (kwargs_bind_not (by simp))
    · rintro ⟨o, ho, _⟩
      cases ho

theorem lpLink_says {j : Json} (hp : Plain j) {c : LPLink ℚ} :
    (LPLink.fromJson j).1 = .ok c ↔ SaysLPLink j c := by
  unfold LPLink.fromJson SaysLPLink
  cases hp with
  | obj o hk ho =>
    simp only [kwargs_bind, strOr_bind' hk, ratOr_bind hk, PyM.pure_run, Except.ok.injEq, Json.obj.injEq]
    constructor
    · rintro ⟨h1, h2, s, a0, q1, a1, q2, a2, q3, a3, q4, a4, rfl⟩
      exact ⟨o, rfl, only_iff.mpr h1, TextOr.at a0 (h2 _ (by simp)), TextOr.at a1 (h2 _ (by simp)), NumOr.at a2 (h2 _ (by simp)),
        NumOr.at a3 (h2 _ (by simp)), a4⟩
    · rintro ⟨o', rfl, h1, a0, a1, a2, a3, a4⟩
      exact ⟨only_iff.mp h1, by simp [mem_keys a0, mem_keys a1, mem_keys a2, mem_keys a3],
        _, .inl a0, _, .inl a1, _, .inl a2, _, .inl a3, _, a4, rfl⟩
  | _ =>
    constructor
    · intro hh
      exact absurd hh (kwargs_bind_not (by simp))
    · rintro ⟨o, ho, _⟩
      cases ho

theorem ratOr_get {γ : Type} {b : γ} {o : List (String × Json)} {k : String} {d : ℚ} {m : ℚ → PyM Json γ} :
    ((Json.ratOr k d >>= m) (.obj o)).1 = .ok b ↔
      ∃ q, (Dict.get? o k = some (.num q) ∨ (Dict.get? o k = none ∧ q = d)) ∧ (m q (.obj o)).1 = .ok b := by
  rw [PyM.bind_run]
  simp only [Json.ratOr]
  cases h : Dict.get? o k with
  | none => simp
  | some x =>
    simp only [Option.some.injEq, reduceCtorEq, false_and, or_false]
    cases hx : x.asNum with
    | error e =>
      simp only [reduceCtorEq, false_iff]
      rintro ⟨q, rfl, _⟩
      simp [Json.asNum] at hx
    | ok q =>
      have := asNum_ok.mp hx
      subst this
      simp

theorem number_says {j : Json} {q : ℚ} : (Json.number j).1 = .ok q ↔ j = .num q := asNum_ok

theorem lpConverter_says {j : Json} (hp : Plain j) {c : LPConverter ℚ} :
    (LPConverter.fromJson j).1 = .ok c ↔ SaysLPConverter j c := by
  unfold LPConverter.fromJson SaysLPConverter
  cases hp with
  | obj o hk ho =>
    have ht : ∀ x y l, Dict.get? (Dict.set (Dict.set o "src_ratios" x) "src_ratios" y) "var_flow_src" ≠ some (.tobj l) := by
      intro x y l
      simp only [Dict.get?_set, String.reduceEq, if_false]
      exact not_tobj ho l
    simp only [overSplitItems_bind (not_tobj ho), setItem_bind, overSplitItems_bind (ht _ _), kwargs_bind, strOr_bind, ratOr_get,
      PyM.pure_run, Dict.get?_set, String.reduceEq, if_false, if_true, Except.ok.injEq, Json.obj.injEq, keys_set_iff]
    constructor
    · rintro ⟨l1, b1, h1, l2, b2, h2, h3, h4, s1, a1, s2, a2, s3, a3, q1, a4, q2, a5, q3, a6, rfl⟩
      have hn : ∀ k ∈ ["name", "dest_network", "dest_node", "var_flow_dest", "cost", "max"], k ∈ Dict.keys o := by
        intro k hk'
        simp only [List.mem_cons, List.not_mem_nil, or_false] at hk'
        rcases hk' with rfl | rfl | rfl | rfl | rfl | rfl
        · simpa using h4 "name" (by simp)
        · simpa using h4 "dest_network" (by simp)
        · simpa using h4 "dest_node" (by simp)
        · simpa using h4 "var_flow_dest" (by simp)
        · simpa using h4 "cost" (by simp)
        · simpa using h4 "max" (by simp)
      have there : ∀ {k : String} {x : Json} {P : Prop}, k ∈ ["name", "dest_network", "dest_node", "var_flow_dest", "cost", "max"] →
          (Dict.get? o k = some x ∨ (Dict.get? o k = none ∧ P)) → (k, x) ∈ o := by
        intro k x P hk' h
        rcases h with h | ⟨h, _⟩
        · exact Dict.mem_of_get? h
        · exact absurd (hn k hk') ((Dict.get?_eq_none_iff _ _).mp h)
      exact ⟨o, rfl, only_iff.mpr fun k hk' => h3 k (by tauto), (split_iff (R := fun x a => x = .num a) hk ho fun x hx a => number_says).mpr ⟨l1, b1, h1, rfl⟩,
        (split_iff (R := fun x a => x = .num a) hk ho fun x hx a => number_says).mpr ⟨l2, b2, h2, rfl⟩, there (by simp) a1, there (by simp) a2, there (by simp) a3,
        there (by simp) a4, there (by simp) a5, there (by simp) a6⟩
    · rintro ⟨o', rfl, h0, h1, h2, a1, a2, a3, a4, a5, a6⟩
      obtain ⟨l1, b1, h1, e1⟩ := (split_iff (R := fun x a => x = .num a) hk ho fun x hx a => number_says).mp h1
      obtain ⟨l2, b2, h2, e2⟩ := (split_iff (R := fun x a => x = .num a) hk ho fun x hx a => number_says).mp h2
      refine ⟨l1, b1, h1, l2, b2, h2, ?_, ?_, _, .inl ((mem_iff_get? hk _ _).mp a1), _, .inl ((mem_iff_get? hk _ _).mp a2), _,
        .inl ((mem_iff_get? hk _ _).mp a3), _, .inl ((mem_iff_get? hk _ _).mp a4), _, .inl ((mem_iff_get? hk _ _).mp a5), _,
        .inl ((mem_iff_get? hk _ _).mp a6), by rw [e1, e2]⟩
      · have := only_iff.mp h0
        intro k hk'
        by_cases hko : k ∈ Dict.keys o
        · exact this k hko
        · simp only [hko, or_false] at hk'
          simp
          tauto
      · simp [mem_keys a1, mem_keys a2, mem_keys a3, mem_keys a4, mem_keys a5, mem_keys a6]
  | _ =>
    constructor
    · intro hh
      exact absurd hh (overSplitItems_bind_not (by simp))
    · rintro ⟨o, ho, _⟩
      cases ho

theorem lpNode_says {j : Json} (hp : Plain j) {c : LPNode ℚ} : (LPNode.fromJson j).1 = .ok c ↔ SaysLPNode j c := by
  unfold LPNode.fromJson SaysLPNode
  cases hp with
  | obj o hk ho =>
    simp only [createItem_bind, kwargs_bind, strOr_bind, item_bind, lift_bind, overList_bind, overItems_bind, setItem_bind, asNum_ok,
      PyM.pure_run, Dict.get?_set, String.reduceEq, if_false, if_true, Except.ok.injEq, Json.obj.injEq, keys_set_iff]
    constructor
    · rintro ⟨l1, b1, h1, l2, b2, h2, l3, b3, h3, l4, b4, h4, h6, h7, rfl⟩
      refine ⟨o, rfl, only_iff.mpr fun k hk' => h6 k (by tauto),
        (elements_iff hk ho fun x hx a => lpConsumption_says hx).mpr ⟨_, h1⟩,
        (elements_iff hk ho fun x hx a => lpProduction_says hx).mpr ⟨_, h2⟩,
        (elements_iff hk ho fun x hx a => lpStorage_says hx).mpr ⟨_, h3⟩,
        (elements_iff hk ho fun x hx a => lpLink_says hx).mpr ⟨_, h4⟩⟩
    · rintro ⟨o', rfl, h0, h1, h2, h3, h4⟩
      obtain ⟨l1, h1⟩ := (elements_iff hk ho fun x hx a => lpConsumption_says hx).mp h1
      obtain ⟨l2, h2⟩ := (elements_iff hk ho fun x hx a => lpProduction_says hx).mp h2
      obtain ⟨l3, h3⟩ := (elements_iff hk ho fun x hx a => lpStorage_says hx).mp h3
      obtain ⟨l4, h4⟩ := (elements_iff hk ho fun x hx a => lpLink_says hx).mp h4
      refine ⟨_, _, h1, _, _, h2, _, _, h3, _, _, h4, ?_, by simp, rfl⟩
      have := only_iff.mp h0
      intro k hk'
      by_cases hko : k ∈ Dict.keys o
      · exact this k hko
      · simp only [hko, or_false] at hk'
        simp
        tauto
  | _ =>
    constructor
    · intro hh
      exact absurd hh (overList_bind_not (by simp))
    · rintro ⟨o, ho, _⟩
      cases ho

theorem lpNetwork_says {j : Json} (hp : Plain j) {c : Dict String (LPNode ℚ)} :
    (lpNetworkFromJson j).1 = .ok c ↔ SaysLPNetwork j c := by
  unfold lpNetworkFromJson SaysLPNetwork
  cases hp with
  | obj o hk ho =>
    simp only [createItem_bind, kwargs_bind, strOr_bind, item_bind, lift_bind, overList_bind, overItems_bind, setItem_bind, asNum_ok,
      PyM.pure_run, Dict.get?_set, String.reduceEq, if_false, if_true, Except.ok.injEq, Json.obj.injEq, keys_set_iff]
    constructor
    · rintro ⟨l1, b1, h1, h6, h7, rfl⟩
      exact ⟨o, rfl, only_iff.mpr fun k hk' => h6 k (by tauto),
        (named_iff hk ho fun x hx a => lpNode_says hx).mpr ⟨_, _, h1, rfl⟩⟩
    · rintro ⟨o', rfl, h0, h1⟩
      obtain ⟨l1, b1, h1, h2⟩ := (named_iff hk ho fun x hx a => lpNode_says hx).mp h1
      refine ⟨_, _, h1, ?_, by simp, h2⟩
      have := only_iff.mp h0
      intro k hk'
      by_cases hko : k ∈ Dict.keys o
      · exact this k hko
      · simp only [hko, or_false] at hk'
        simp
        tauto
  | _ =>
    constructor
    · intro hh
      exact absurd hh (overItems_bind_not (by simp))
    · rintro ⟨o, ho, _⟩
      cases ho

theorem lpStep_says {j : Json} (hp : Plain j) {c : LPTimeStep ℚ} : (LPTimeStep.fromJson j).1 = .ok c ↔ SaysStep j c := by
  unfold LPTimeStep.fromJson SaysStep
  cases hp with
  | obj o hk ho =>
    simp only [overItems_bind, PyM.pure_run, Dict.get?_set, String.reduceEq, if_false, if_true, Except.ok.injEq, Json.obj.injEq]
    constructor
    · rintro ⟨l1, b1, h1, l2, b2, h2, rfl⟩
      exact ⟨o, rfl, (named_iff hk ho fun x hx a => lpNetwork_says hx).mpr ⟨_, _, h1, rfl⟩,
        (named_iff hk ho fun x hx a => lpConverter_says hx).mpr ⟨_, _, h2, rfl⟩⟩
    · rintro ⟨o', rfl, h1, h2⟩
      obtain ⟨l1, b1, h1, e1⟩ := (named_iff hk ho fun x hx a => lpNetwork_says hx).mp h1
      obtain ⟨l2, b2, h2, e2⟩ := (named_iff hk ho fun x hx a => lpConverter_says hx).mp h2
      exact ⟨_, _, h1, _, _, h2, by rw [e1, e2]⟩
  | _ =>
    constructor
    · intro hh
      exact absurd hh (overItems_bind_not (by simp))
    · rintro ⟨o, ho, _⟩
      cases ho

theorem readSteps_says {j : Json} (hp : Plain j) {l : List (LPTimeStep ℚ)} : readSteps j = .ok l ↔ SaysSteps j l := by
  unfold SaysSteps Elements
  cases hp with
  | arr js hj =>
    simp only [readSteps, mapMut_ok, Json.arr.injEq]
    constructor
    · exact fun h => ⟨js, rfl, (forall₂_iff_of fun x hx a => lpStep_says (hj x hx)).mp h⟩
    · rintro ⟨js', rfl, h⟩
      exact (forall₂_iff_of fun x hx a => lpStep_says (hj x hx)).mpr h
  | _ => simp [readSteps]

end Hadar
