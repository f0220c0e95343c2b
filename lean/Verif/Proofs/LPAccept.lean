import Verif.Proofs.LPReady
import Verif.Proofs.StudyProps

/-!
# What an accepted study is like

Helper lemmas: from the fact that `solve_lp` returned, back to the study.
-/

namespace Hadar

open Spec

theorem mapM_ok_each {α β : Type} {f : α → Except PyErr β} {l : List α} {r : List β}
    (h : l.mapM f = .ok r) : ∀ x ∈ l, ∃ y, f x = .ok y := by
  induction l generalizing r with
  | nil => simp
  | cons a l ih =>
    rw [List.mapM_cons] at h
    simp only [bind, Except.bind] at h
    cases ha : f a with
    | error e => rw [ha] at h; cases h
    | ok y =>
      rw [ha] at h
      dsimp only at h
      cases hl : l.mapM f with
      | error e => rw [hl] at h; cases h
      | ok ys =>
        intro x hx
        rcases List.mem_cons.mp hx with rfl | hx
        · exact ⟨y, ha⟩
        · exact ih hl x hx

theorem loopM_ok_each {α σ β : Type} {f : α → σ → Except PyErr (β × σ)} {l : List α} {b : σ}
    {r : List β × σ} (h : loopM f l b = .ok r) : ∀ x ∈ l, ∃ b' y, f x b' = .ok y := by
  induction l generalizing b r with
  | nil => simp
  | cons a l ih =>
    rw [loopM] at h
    simp only [bind, Except.bind] at h
    cases ha : f a b with
    | error e => rw [ha] at h; cases h
    | ok y =>
      rw [ha] at h
      dsimp only at h
      cases hl : loopM f l y.2 with
      | error e => rw [hl] at h; cases h
      | ok ys =>
        intro x hx
        rcases List.mem_cons.mp hx with rfl | hx
        · exact ⟨b, y, ha⟩
        · exact ih hl x hx

/-- a loop that goes through, with an invariant of the state -/
theorem foldlM_ok_each {α σ : Type} {f : σ → α → Except PyErr σ} (P : σ → Prop) {l : List α} {b r : σ}
    (h : l.foldlM f b = .ok r) (h0 : P b) (hs : ∀ x ∈ l, ∀ b b', P b → f b x = .ok b' → P b') :
    P r ∧ ∀ x ∈ l, ∃ b b', P b ∧ f b x = .ok b' := by
  induction l generalizing b with
  | nil =>
    simp only [List.foldlM_nil, pure, Except.pure, Except.ok.injEq] at h
    subst h
    exact ⟨h0, by simp⟩
  | cons a l ih =>
    rw [List.foldlM_cons] at h
    simp only [bind, Except.bind] at h
    cases ha : f b a with
    | error e => rw [ha] at h; cases h
    | ok y =>
      rw [ha] at h
      dsimp only at h
      obtain ⟨h1, h2⟩ := ih h (hs a (by simp) b y h0 ha) (fun x hx => hs x (by simp [hx]))
      refine ⟨h1, ?_⟩
      intro x hx
      rcases List.mem_cons.mp hx with rfl | hx
      · exact ⟨b, y, h0, ha⟩
      · exact h2 x hx

/-! ### Building -/

theorem givenAsArray_of {v : NumVal} (h : v.isNumber = false) : GivenAsArray v := by
  intro q hq
  unfold NumVal.isNumber at h
  rw [hq] at h
  cases h

theorem srcBound_usable {vm w : NumVal} {v : Var} {m r : ℚ} {c : Cmd}
    (h : srcBound ((ConvField.val vm).isNumber && w.isNumber) v m r = .ok c) (hz : r = 0) :
    m ≠ 0 ∧ (GivenAsArray w ∨ ∃ v, ConvField.val vm = .val v ∧ GivenAsArray v) := by
  unfold srcBound at h
  rw [if_neg (by simpa using hz)] at h
  split at h
  · cases h
  rename_i hn
  split at h
  · cases h
  rename_i hm
  refine ⟨hm, ?_⟩
  rw [Bool.not_eq_true, Bool.and_eq_false_iff] at hn
  rcases hn with hn | hn
  · exact .inr ⟨vm, rfl, givenAsArray_of hn⟩
  · exact .inl (givenAsArray_of hn)

theorem getConvVar_usable {s : Study} (hi : StudyInv s) (hu : AllUsable s) {p : String × Converter}
    (hp : p ∈ s.converters) {k t : ℕ} (hk : k < s.nbScn) (ht : t < s.horizon)
    {r : LPConverter Var × List Cmd} (h : getConvVar s p.1 t k = .ok r) :
    (p.2.cost ≠ .int0 ∧ p.2.max ≠ .int0) ∧ ∀ q ∈ p.2.srcRatios, val q.2 k t = 0 →
      fval p.2.max k t ≠ 0 ∧ (GivenAsArray q.2 ∨ ∃ v, p.2.max = .val v ∧ GivenAsArray v) := by
  obtain ⟨name, c⟩ := p
  obtain ⟨u1, u2, u3⟩ := hu.2 _ hp
  dsimp only at u1 u2 u3 h ⊢
  unfold getConvVar at h
  rw [Dict.getE_of_get? (Dict.get?_of_mem hi.names.converters hp)] at h
  simp only [bind, Except.bind] at h
  rw [mapM_ok (g := fun p => (p.1, val p.2 k t))] at h
  · dsimp only at h
    cases hc : c.cost with
    | int0 => rw [hc] at h; cases h
    | val vc =>
      cases hm : c.max with
      | int0 =>
        rw [hc, hm] at h
        simp only [ConvField.getitem] at h
        rw [getitem_val (u2 _ hc) hk ht] at h
        cases h
      | val vm =>
        refine ⟨by simp, ?_⟩
        rw [hc, hm] at h
        simp only [ConvField.getitem] at h
        rw [getitem_val (u2 _ hc) hk ht, getitem_val (u3 _ hm) hk ht] at h
        dsimp only at h
        split at h
        · cases h
        · rename_i bounds hb
          intro q hq h0
          obtain ⟨y, hy⟩ := mapM_ok_each hb q hq
          rw [getitem_val (u1 _ hq) hk ht] at hy
          exact srcBound_usable hy h0
  · intro p hp'
    rw [getitem_val (u1 _ hp') hk ht]; rfl

theorem buildAll_usable {s : Study} (hi : StudyInv s) (hu : AllUsable s) {k : ℕ} (hk : k < s.nbScn)
    {r : List (LPTimeStep Var) × List Cmd} (h : buildAll s k = .ok r) {p : String × Converter}
    (hp : p ∈ s.converters) {t : ℕ} (ht : t < s.horizon) :
    (p.2.cost ≠ .int0 ∧ p.2.max ≠ .int0) ∧ ∀ q ∈ p.2.srcRatios, val q.2 k t = 0 →
      fval p.2.max k t ≠ 0 ∧ (GivenAsArray q.2 ∨ ∃ v, p.2.max = .val v ∧ GivenAsArray v) := by
  unfold buildAll at h
  simp only [bind, Except.bind] at h
  split at h
  · cases h
  · rename_i v hv
    obtain ⟨b, y, hy⟩ := loopM_ok_each hv t (by simpa using ht)
    unfold buildTime at hy
    simp only [bind, Except.bind] at hy
    split at hy
    · cases hy
    · split at hy
      · cases hy
      · rename_i v' hv'
        obtain ⟨b', y', hy'⟩ := loopM_ok_each hv' p hp
        unfold buildConv at hy'
        simp only [bind, Except.bind] at hy'
        split at hy'
        · cases hy'
        · rename_i c hc
          exact getConvVar_usable hi hu hp hk ht hc

/-! ### Writing the result -/

/-- the converters of the result have the sources of those of the study -/
def KeysKept (s : Study) (r : Result) : Prop :=
  ∀ q ∈ r.converters, ∃ p ∈ s.converters, p.1 = q.1 ∧ q.2.flowSrc.map Prod.fst = p.2.srcRatios.map Prod.fst

theorem keysKept_init (s : Study) (b : Benchmark) : KeysKept s (OutputMapper.init s b) := by
  intro q hq
  obtain ⟨p, hp, rfl⟩ := List.mem_map.mp hq
  exact ⟨p, hp, rfl, by simp [Function.comp_def]⟩

theorem Dict.set_keys_of_get? {K V : Type} [DecidableEq K] {d : Dict K V} {k : K} {v w : V}
    (h : d.get? k = some v) : (d.set k w).map Prod.fst = d.map Prod.fst := by
  induction d with
  | nil => simp [Dict.get?] at h
  | cons p d ih =>
    obtain ⟨k', v'⟩ := p
    rw [Dict.get?] at h
    rw [Dict.set]
    split
    · rename_i e; simp [e]
    · rename_i e
      rw [if_neg e] at h
      simp [ih h]

theorem Dict.getE_ok {K V : Type} [DecidableEq K] {d : Dict K V} {k : K} {v : V}
    (h : Dict.getE d k = .ok v) : d.get? k = some v := by
  unfold Dict.getE at h
  split at h
  · rename_i x hx; cases h; exact hx
  · cases h

theorem writeConv_keys {t k : ℕ} {v : LPConverter ℚ} {o o' : OutputConverter}
    (h : OutputMapper.writeConv t k v o = .ok o') :
    o'.flowSrc.map Prod.fst = o.flowSrc.map Prod.fst ∧
      ∀ x ∈ v.varFlowSrc, x.1 ∈ o.flowSrc.map Prod.fst := by
  unfold OutputMapper.writeConv at h
  simp only [bind, Except.bind] at h
  split at h
  · cases h
  · rename_i src hsrc
    split at h
    · cases h
    · simp only [pure, Except.pure, Except.ok.injEq] at h
      subst h
      obtain ⟨h1, h2⟩ := foldlM_ok_each (fun d : Dict (List String) NdArray =>
        d.map Prod.fst = o.flowSrc.map Prod.fst) hsrc rfl (by
          intro x _ d d' hd hx
          split at hx
          · cases hx
          · rename_i a ha
            split at hx
            · cases hx
            · cases hx
              rw [Dict.set_keys_of_get? (Dict.getE_ok ha), hd])
      refine ⟨h1, ?_⟩
      intro x hx
      obtain ⟨d, d', hd, hx'⟩ := h2 x hx
      split at hx'
      · cases hx'
      · rename_i a ha
        rw [← hd]
        exact List.mem_map.mpr ⟨_, Dict.mem_of_get? (Dict.getE_ok ha), rfl⟩

theorem setNodeVar_converters {g d : String} {t k : ℕ} {v : LPNode ℚ} {r r' : Result}
    (h : OutputMapper.setNodeVar g d t k v r = .ok r') : r'.converters = r.converters := by
  unfold OutputMapper.setNodeVar at h
  simp only [bind, Except.bind] at h
  split at h
  · cases h
  · split at h
    · cases h
    · split at h
      · cases h
      · cases h; rfl

theorem setConverterVar_keys {s : Study} {name : String} {t k : ℕ} {v : LPConverter ℚ} {r r' : Result}
    (hr : KeysKept s r) (h : OutputMapper.setConverterVar name t k v r = .ok r') :
    KeysKept s r' ∧ ∃ p ∈ s.converters, p.1 = name ∧ ∀ x ∈ v.varFlowSrc, x.1 ∈ p.2.srcRatios.map Prod.fst := by
  unfold OutputMapper.setConverterVar at h
  simp only [bind, Except.bind] at h
  split at h
  · cases h
  · rename_i out hout
    split at h
    · cases h
    · rename_i out' hout'
      simp only [pure, Except.pure, Except.ok.injEq] at h
      subst h
      have hm := Dict.mem_of_get? (Dict.getE_ok hout)
      obtain ⟨p, hp, e1, e2⟩ := hr _ hm
      obtain ⟨h1, h2⟩ := writeConv_keys hout'
      refine ⟨?_, p, hp, e1, fun x hx => by rw [← e2]; exact h2 x hx⟩
      intro q hq
      obtain ⟨pre, post, e3, e4⟩ := Dict.modify_split (fun _ => out') (Dict.getE_ok hout)
      have hq : q ∈ pre ++ (name, out') :: post := e4 ▸ hq
      rcases List.mem_append.mp hq with h | h
      · exact hr q (by rw [e3]; exact List.mem_append_left _ h)
      · rcases List.mem_cons.mp h with rfl | h
        · exact ⟨p, hp, e1, h1.trans e2⟩
        · exact hr q (by rw [e3]; exact List.mem_append_right _ (List.mem_cons_of_mem _ h))

theorem mapStep_keys {s : Study} {k t : ℕ} {ts : LPTimeStep ℚ} {r r' : Result} (hr : KeysKept s r)
    (h : mapStep s k t ts r = .ok r') : KeysKept s r' ∧ ∀ p ∈ s.converters, ∃ v, ts.converters.get? p.1 = some v ∧
      ∃ p' ∈ s.converters, p'.1 = p.1 ∧ ∀ x ∈ v.varFlowSrc, x.1 ∈ p'.2.srcRatios.map Prod.fst := by
  unfold mapStep at h
  simp only [bind, Except.bind] at h
  split at h
  · cases h
  · rename_i r1 hr1
    have hk1 : KeysKept s r1 := by
      refine (foldlM_ok_each (KeysKept s) hr1 hr ?_).1
      intro x _ b b' hb hx
      refine (foldlM_ok_each (KeysKept s) hx hb ?_).1
      intro y _ c c' hc hy
      split at hy
      · cases hy
      · split at hy
        · cases hy
        · intro q hq
          rw [setNodeVar_converters hy] at hq
          exact hc q hq
    obtain ⟨h1, h2⟩ := foldlM_ok_each (KeysKept s) h hk1 (by
      intro x _ b b' hb hx
      split at hx
      · cases hx
      · exact (setConverterVar_keys hb hx).1)
    refine ⟨h1, ?_⟩
    intro p hp
    obtain ⟨b, b', hb, hx⟩ := h2 p hp
    split at hx
    · cases hx
    · rename_i v hv
      exact ⟨v, Dict.getE_ok hv, (setConverterVar_keys hb hx).2⟩

theorem mapScenario_keys {s : Study} {k : ℕ} {vars : List (LPTimeStep ℚ)} {r r' : Result} (hr : KeysKept s r)
    (h : mapScenario s k vars r = .ok r') : KeysKept s r' ∧ ∀ t < s.horizon, ∃ ts, vars[t]? = some ts ∧
      ∀ p ∈ s.converters, ∃ v, ts.converters.get? p.1 = some v ∧
        ∃ p' ∈ s.converters, p'.1 = p.1 ∧ ∀ x ∈ v.varFlowSrc, x.1 ∈ p'.2.srcRatios.map Prod.fst := by
  unfold mapScenario at h
  obtain ⟨h1, h2⟩ := foldlM_ok_each (KeysKept s) h hr (by
    intro x _ b b' hb hx
    split at hx
    · exact (mapStep_keys hb hx).1
    · cases hx)
  refine ⟨h1, ?_⟩
  intro t ht
  obtain ⟨b, b', hb, hx⟩ := h2 t (by simpa using ht)
  split at hx
  · rename_i ts hts
    exact ⟨ts, hts, (mapStep_keys hb hx).2⟩
  · cases hx

theorem mapResults_keys {s : Study} {outs : List (List (LPTimeStep ℚ))} {r r' : Result} (hr : KeysKept s r)
    (h : mapResults s outs r = .ok r') : ∀ k < s.nbScn, ∀ t < s.horizon, ∃ vars ts, outs[k]? = some vars ∧
      vars[t]? = some ts ∧ ∀ p ∈ s.converters, ∃ v, ts.converters.get? p.1 = some v ∧
        ∃ p' ∈ s.converters, p'.1 = p.1 ∧ ∀ x ∈ v.varFlowSrc, x.1 ∈ p'.2.srcRatios.map Prod.fst := by
  unfold mapResults at h
  obtain ⟨h1, h2⟩ := foldlM_ok_each (KeysKept s) h hr (by
    intro x _ b b' hb hx
    split at hx
    · exact (mapScenario_keys hb hx).1
    · cases hx)
  intro k hk t ht
  obtain ⟨b, b', hb, hx⟩ := h2 k (by simpa using hk)
  split at hx
  · rename_i vars hvars
    obtain ⟨ts, hts, h⟩ := (mapScenario_keys hb hx).2 t ht
    exact ⟨vars, ts, hvars, hts, h⟩
  · cases hx

/-! ### Names -/

theorem intercalate_splitSepAux : ∀ l acc : List Char,
    List.intercalate [':', ':'] (splitSepAux l acc) = acc.reverse ++ l
  | [], acc => by simp [splitSepAux, List.intercalate]
  | [c], acc => by simp [splitSepAux, List.intercalate]
  | c :: c' :: r, acc => by
    rw [splitSepAux]
    split
    · rename_i h
      obtain ⟨rfl, rfl⟩ := h
      have ih := intercalate_splitSepAux r []
      have hne : splitSepAux r [] ≠ [] := by
        cases r with
        | nil => simp [splitSepAux]
        | cons a r =>
          cases r with
          | nil => simp [splitSepAux]
          | cons b r =>
            intro h0
            rw [h0] at ih
            simp [List.intercalate] at ih
      obtain ⟨x, xs, hx⟩ := List.exists_cons_of_ne_nil hne
      rw [hx] at ih ⊢
      simp only [List.intercalate, List.intersperse, List.flatten_cons, List.reverse_nil, List.nil_append] at ih ⊢
      cases xs with
      | nil => simp at ih ⊢; exact ih
      | cons y ys => simp at ih ⊢; exact ih
    · rename_i h
      rw [intercalate_splitSepAux (c' :: r) (c :: acc)]
      simp

/-- joining the parts gives the name back -/
theorem joinKey_splitKey (k : String) : joinKey (splitKey k) = k := by
  unfold joinKey splitKey
  rw [List.map_map]
  have : (List.map (String.toList ∘ String.ofList) (splitSepAux k.toList [])) = splitSepAux k.toList [] := by
    conv_rhs => rw [← List.map_id (splitSepAux k.toList [])]
    apply List.map_congr_left
    intro l _
    simp
  rw [this, intercalate_splitSepAux]
  simp

theorem set_keys_mem {K V : Type} [DecidableEq K] (d : Dict K V) (k : K) (v : V) (x : K) :
    x ∈ (d.set k v).map Prod.fst ↔ x ∈ d.map Prod.fst ∨ x = k := by
  induction d with
  | nil => simp [Dict.set]
  | cons p d ih =>
    obtain ⟨k', v'⟩ := p
    rw [Dict.set]
    split
    · rename_i e
      simp only [List.map_cons, List.mem_cons]
      subst e
      tauto
    · simp only [List.map_cons, List.mem_cons, ih]
      tauto

theorem ofList_keys_mem {K V : Type} [DecidableEq K] {m : List (K × V)} {k : K} (h : k ∈ m.map Prod.fst) :
    k ∈ (Dict.ofList m).map Prod.fst := by
  unfold Dict.ofList
  have : ∀ (m : List (K × V)) (d : Dict K V), (k ∈ m.map Prod.fst ∨ k ∈ d.map Prod.fst) →
      k ∈ (m.foldl (fun d p => d.set p.1 p.2) d).map Prod.fst := by
    intro m
    induction m with
    | nil => simp
    | cons a m ih =>
      intro d hd
      rw [List.foldl_cons]
      apply ih
      rw [set_keys_mem]
      simp only [List.map_cons, List.mem_cons] at hd
      tauto
  exact this m [] (.inl h)

theorem wireKeys_mem {α : Type} {l : Dict (List String) α} {k : List String} (hk : k ∈ l.map Prod.fst) :
    splitKey (joinKey k) ∈ (wireKeys l).map Prod.fst := by
  have hof : ∀ {K V : Type} [DecidableEq K] (m : List (K × V)) (k : K), k ∈ m.map Prod.fst →
      k ∈ (Dict.ofList m).map Prod.fst := by
    intro K V _ m k h
    exact ofList_keys_mem h
  unfold wireKeys
  apply hof
  rw [List.map_map]
  have : joinKey k ∈ (Dict.ofList (l.map fun p => (joinKey p.1, p.2))).map Prod.fst := by
    apply hof
    rw [List.map_map]
    obtain ⟨p, hp, rfl⟩ := List.mem_map.mp hk
    exact List.mem_map.mpr ⟨p, hp, rfl⟩
  obtain ⟨p, hp, e⟩ := List.mem_map.mp this
  exact List.mem_map.mpr ⟨p, hp, by simp [e]⟩

end Hadar
