import Verif.Model.Base
import Mathlib.Data.List.Nodup
import Mathlib.Tactic.Linarith

/-! # Lemmas on association lists -/

namespace Hadar.Dict
variable {K V : Type} [DecidableEq K]

@[simp] theorem get?_nil (k : K) : get? ([] : Dict K V) k = none := rfl

theorem get?_cons (p : K × V) (d : Dict K V) (k : K) :
    get? (p :: d) k = if p.1 = k then some p.2 else get? d k := rfl

theorem get?_set_self (d : Dict K V) (k : K) (v : V) : get? (set d k v) k = some v := by
  induction d with
  | nil => simp [set, get?]
  | cons p d ih =>
    obtain ⟨k', v'⟩ := p
    by_cases h : k' = k
    · simp [set, h, get?]
    · simp [set, h, get?, ih]

theorem get?_set_ne (d : Dict K V) {k k' : K} (v : V) (h : k ≠ k') :
    get? (set d k v) k' = get? d k' := by
  induction d with
  | nil => simp [set, get?, h]
  | cons p d ih =>
    obtain ⟨k₁, v₁⟩ := p
    by_cases h1 : k₁ = k
    · subst h1; simp [set, get?, h]
    · simp only [set, h1, if_false, get?, ih]

theorem get?_set (d : Dict K V) (k k' : K) (v : V) :
    get? (set d k v) k' = if k = k' then some v else get? d k' := by
  by_cases h : k = k'
  · subst h; simp [get?_set_self]
  · simp [h, get?_set_ne]

theorem get?_modify (d : Dict K V) (k k' : K) (f : V → V) :
    get? (modify d k f) k' = if k = k' then (get? d k').map f else get? d k' := by
  induction d with
  | nil => simp [modify, get?]
  | cons p d ih =>
    obtain ⟨k₁, v₁⟩ := p
    by_cases h1 : k₁ = k
    · subst h1
      by_cases h2 : k₁ = k' <;> simp [modify, get?, h2]
    · simp only [modify, h1, if_false, get?, ih]
      by_cases h2 : k₁ = k'
      · subst h2
        have : k ≠ k₁ := fun h => h1 h.symm
        simp [this]
      · simp [h2]

theorem get?_eq_none_iff (d : Dict K V) (k : K) : get? d k = none ↔ k ∉ d.keys := by
  induction d with
  | nil => simp [keys]
  | cons p d ih =>
    obtain ⟨k', v'⟩ := p
    by_cases h : k' = k
    · subst h; simp [get?, keys]
    · have : ¬ k = k' := fun e => h e.symm
      simpa [get?, h, keys, this] using ih

theorem contains_iff (d : Dict K V) (k : K) : d.contains k = true ↔ k ∈ d.keys := by
  have := get?_eq_none_iff d k
  unfold contains
  cases h : get? d k with
  | none => simpa [h] using this
  | some v => simp only [Option.isSome_some, true_iff]; by_contra hc; simp [this.mpr hc] at h

theorem contains_eq_false_iff (d : Dict K V) (k : K) : d.contains k = false ↔ k ∉ d.keys := by
  rw [← contains_iff]; simp

theorem mem_of_get? {d : Dict K V} {k : K} {v : V} (h : get? d k = some v) : (k, v) ∈ d := by
  induction d with
  | nil => simp at h
  | cons p d ih =>
    obtain ⟨k', v'⟩ := p
    by_cases hk : k' = k
    · subst hk; simp [get?] at h; simp [h]
    · simp only [get?, hk, if_false] at h
      exact List.mem_cons_of_mem _ (ih h)

theorem get?_of_mem {d : Dict K V} {k : K} {v : V} (hn : d.keys.Nodup) (h : (k, v) ∈ d) :
    get? d k = some v := by
  induction d with
  | nil => simp at h
  | cons p d ih =>
    obtain ⟨k', v'⟩ := p
    simp only [keys, List.map_cons, List.nodup_cons] at hn
    rcases List.mem_cons.mp h with h | h
    · cases h; simp [get?]
    · have : k' ≠ k := by
        rintro rfl
        exact hn.1 (List.mem_map.mpr ⟨_, h, rfl⟩)
      simp only [get?, this, if_false]
      exact ih hn.2 h

theorem keys_set_of_mem {d : Dict K V} {k : K} {v : V} (h : k ∈ d.keys) :
    (set d k v).keys = d.keys := by
  induction d with
  | nil => simp [keys] at h
  | cons p d ih =>
    obtain ⟨k', v'⟩ := p
    by_cases hk : k' = k
    · simp [set, hk, keys]
    · have hk' : k ≠ k' := fun e => hk e.symm
      simp only [keys, List.map_cons, List.mem_cons, hk', false_or] at h
      have := ih h
      simp only [keys] at this
      simp [set, hk, keys, this]

theorem set_of_not_mem {d : Dict K V} {k : K} {v : V} (h : k ∉ d.keys) :
    set d k v = d ++ [(k, v)] := by
  induction d with
  | nil => simp [set]
  | cons p d ih =>
    obtain ⟨k', v'⟩ := p
    simp only [keys, List.map_cons, List.mem_cons, not_or] at h
    have hk : k' ≠ k := fun e => h.1 e.symm
    simp [set, hk, ih h.2]

theorem keys_set_of_not_mem {d : Dict K V} {k : K} {v : V} (h : k ∉ d.keys) :
    (set d k v).keys = d.keys ++ [k] := by
  rw [set_of_not_mem h]; simp [keys]

theorem keys_modify (d : Dict K V) (k : K) (f : V → V) : (modify d k f).keys = d.keys := by
  induction d with
  | nil => simp [modify, keys]
  | cons p d ih =>
    obtain ⟨k', v'⟩ := p
    by_cases hk : k' = k
    · simp [modify, hk, keys]
    · simp only [keys] at ih
      simp [modify, hk, keys, ih]

theorem nodup_set {d : Dict K V} (k : K) (v : V) (h : d.keys.Nodup) : (set d k v).keys.Nodup := by
  by_cases hk : k ∈ d.keys
  · rwa [keys_set_of_mem hk]
  · rw [keys_set_of_not_mem hk, List.nodup_append]
    refine ⟨h, by simp, ?_⟩
    intro a ha b hb
    simp at hb; subst hb
    rintro rfl
    exact hk ha

theorem nodup_modify {d : Dict K V} (k : K) (f : V → V) (h : d.keys.Nodup) :
    (modify d k f).keys.Nodup := by rwa [keys_modify]

theorem mem_modify {d : Dict K V} {k : K} {f : V → V} {p : K × V} (h : p ∈ modify d k f) :
    p ∈ d ∨ ∃ v, (k, v) ∈ d ∧ p = (k, f v) := by
  induction d with
  | nil => simp [modify] at h
  | cons q d ih =>
    obtain ⟨k', v'⟩ := q
    by_cases hk : k' = k
    · subst hk
      simp only [modify, if_true, List.mem_cons] at h
      rcases h with h | h
      · exact .inr ⟨v', by simp, h⟩
      · exact .inl (by simp [h])
    · simp only [modify, hk, if_false, List.mem_cons] at h
      rcases h with h | h
      · exact .inl (by simp [h])
      · rcases ih h with h | ⟨v, hv, e⟩
        · exact .inl (by simp [h])
        · exact .inr ⟨v, by simp [hv], e⟩

theorem mem_set {d : Dict K V} {k : K} {v : V} {p : K × V} (h : p ∈ set d k v) :
    p ∈ d ∨ p = (k, v) := by
  induction d with
  | nil => simp [set] at h; exact .inr h
  | cons q d ih =>
    obtain ⟨k', v'⟩ := q
    by_cases hk : k' = k
    · subst hk
      simp only [set, if_true, List.mem_cons] at h
      rcases h with h | h
      · exact .inr h
      · exact .inl (by simp [h])
    · simp only [set, hk, if_false, List.mem_cons] at h
      rcases h with h | h
      · exact .inl (by simp [h])
      · rcases ih h with h | h
        · exact .inl (by simp [h])
        · exact .inr h

theorem modify_id_of_not_mem {d : Dict K V} {k : K} {f : V → V} (h : k ∉ d.keys) :
    modify d k f = d := by
  induction d with
  | nil => simp [modify]
  | cons p d ih =>
    obtain ⟨k', v'⟩ := p
    simp only [keys, List.map_cons, List.mem_cons, not_or] at h
    have hk : k' ≠ k := fun e => h.1 e.symm
    simp [modify, hk, ih h.2]

theorem mem_modify_iff {d : Dict K V} (hn : d.keys.Nodup) {k : K} {f : V → V} {p : K × V} :
    p ∈ modify d k f ↔ (p ∈ d ∧ p.1 ≠ k) ∨ ∃ v, (k, v) ∈ d ∧ p = (k, f v) := by
  induction d with
  | nil => simp [modify]
  | cons q d ih =>
    obtain ⟨k', v'⟩ := q
    simp only [keys, List.map_cons, List.nodup_cons] at hn
    by_cases hk : k' = k
    · subst hk
      simp only [modify, if_true, List.mem_cons]
      have hnot : ∀ x ∈ d, x.1 ≠ k' := fun x hx e => hn.1 (List.mem_map.mpr ⟨x, hx, e⟩)
      constructor
      · rintro (h | h)
        · exact .inr ⟨v', .inl rfl, h⟩
        · exact .inl ⟨.inr h, hnot _ h⟩
      · rintro (⟨h | h, h'⟩ | ⟨v, h | h, e⟩)
        · subst h; exact absurd rfl h'
        · exact .inr h
        · cases h; exact .inl e
        · exact absurd rfl (hnot _ h)
    · simp only [modify, hk, if_false, List.mem_cons, ih hn.2]
      constructor
      · rintro (h | ⟨h, h'⟩ | ⟨v, h, e⟩)
        · subst h; exact .inl ⟨.inl rfl, hk⟩
        · exact .inl ⟨.inr h, h'⟩
        · exact .inr ⟨v, .inr h, e⟩
      · rintro (⟨h | h, h'⟩ | ⟨v, h | h, e⟩)
        · exact .inl h
        · exact .inr (.inl ⟨h, h'⟩)
        · cases h; exact absurd rfl hk
        · exact .inr (.inr ⟨v, h, e⟩)

theorem foldl_set_append (l : List (K × V)) (d : Dict K V) (h : (d.keys ++ l.map Prod.fst).Nodup) :
    l.foldl (fun d kv => set d kv.1 kv.2) d = d ++ l := by
  induction l generalizing d with
  | nil => simp
  | cons p l ih =>
    have hp : p.1 ∉ d.keys := by
      intro hm
      have := (List.nodup_append.mp h).2.2 _ hm p.1 (by simp)
      exact this rfl
    simp only [List.foldl_cons]
    rw [set_of_not_mem hp, ih]
    · simp
    · simpa [keys] using h

theorem ofList_of_nodup {l : List (K × V)} (h : (l.map Prod.fst).Nodup) : ofList l = l := by
  unfold ofList
  rw [foldl_set_append _ _ (by simpa [keys] using h)]
  simp

theorem getE_ok_iff (d : Dict K V) (k : K) (v : V) : getE d k = .ok v ↔ get? d k = some v := by
  unfold getE; cases get? d k <;> simp

theorem getE_of_get? {d : Dict K V} {k : K} {v : V} (h : get? d k = some v) :
    getE d k = .ok v := (getE_ok_iff d k v).mpr h

end Hadar.Dict
