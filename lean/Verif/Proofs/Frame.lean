import Verif.Model.Frame
import Verif.Proofs.Numeric

/-! # Lemmas on dataframes -/

namespace Hadar

/-- the `m`-th value of what is assigned -/
def Fill.at : Fill → ℕ → Cell
  | .all c, _ => c
  | .each l, m => l.getD m .nan

/-- one value, or an array of the right length -/
def Fill.Fits (b : ℕ) : Fill → Prop
  | .all _ => True
  | .each l => l.length = b

namespace Frame

theorem assign_ok {a b : ℕ} {f : Frame} {p : String × Fill} (hb : b ≤ f.size)
    (hp : p.2.Fits (b - a)) : ∃ f', assign a b f p = .ok f' ∧ f'.size = f.size ∧
      f'.names = (if f.Has p.1 then f.names else f.names ++ [(p.1, true)]) ∧
      ∀ c i, f'.cell c i = if c = p.1 then
        if a ≤ i ∧ i < b then p.2.at (i - a) else if f.Has p.1 then f.cell c i else .nan
        else f.cell c i := by
  unfold assign
  rw [min_eq_left hb]
  obtain ⟨c, v⟩ := p
  cases v with
  | all x => exact ⟨_, rfl, rfl, rfl, fun _ _ => rfl⟩
  | each l =>
    have hl : l.length = b - a := hp
    simp only [hl, if_true]
    exact ⟨_, rfl, rfl, rfl, fun _ _ => rfl⟩

theorem assignAll_append (a b : ℕ) (l l' : List (String × Fill)) (f : Frame) :
    assignAll a b (l ++ l') f = (assignAll a b l f >>= assignAll a b l') :=
  List.foldlM_append

/-- columns created by assignments -/
def created (f : Frame) (cols : List String) : List (String × Bool) :=
  (cols.filter fun c => ¬ f.Has c).map fun c => (c, true)

theorem has_append {f f' : Frame} {l : List (String × Bool)} (h : f'.names = f.names ++ l)
    (c : String) : f'.Has c ↔ f.Has c ∨ c ∈ l.map Prod.fst := by
  unfold Has; rw [h]; simp

theorem assignAll_ok {a b : ℕ} {l : List (String × Fill)} {f : Frame} (hb : b ≤ f.size)
    (hn : (l.map Prod.fst).Nodup) (hp : ∀ p ∈ l, p.2.Fits (b - a)) :
    ∃ f', assignAll a b l f = .ok f' ∧ f'.size = f.size ∧
      f'.names = f.names ++ f.created (l.map Prod.fst) ∧
      ∀ c i, f'.cell c i = match Dict.get? l c with
        | none => f.cell c i
        | some v => if a ≤ i ∧ i < b then v.at (i - a) else
          if f.Has c then f.cell c i else .nan := by
  induction l generalizing f with
  | nil => exact ⟨f, rfl, rfl, by simp [created], fun _ _ => rfl⟩
  | cons p l ih =>
    obtain ⟨f1, e1, s1, n1, c1⟩ := assign_ok hb (hp p List.mem_cons_self)
    obtain ⟨hnp, hnl⟩ := List.nodup_cons.mp hn
    obtain ⟨f2, e2, s2, n2, c2⟩ := ih (f := f1) (by rw [s1]; exact hb) hnl
      (fun q hq => hp q (List.mem_cons_of_mem _ hq))
    have hhas : ∀ c, c ≠ p.1 → (f1.Has c ↔ f.Has c) := by
      intro c hc
      unfold Has
      rw [n1]
      split_ifs
      · rfl
      · simp [hc]
    refine ⟨f2, ?_, by rw [s2, s1], ?_, ?_⟩
    · unfold assignAll at e2 ⊢
      rw [List.foldlM_cons, e1]
      exact e2
    · rw [n2]
      have hf : f1.created (l.map Prod.fst) = f.created (l.map Prod.fst) := by
        unfold created
        congr 1
        refine List.filter_congr ?_
        intro c hc
        have : c ≠ p.1 := fun h => hnp (h ▸ hc)
        simp [hhas c this]
      rw [hf, n1]
      unfold created
      by_cases h : f.Has p.1
      · simp [h]
      · simp [h]
    · intro c i
      rw [c2]
      rw [Dict.get?_cons]
      by_cases hc : p.1 = c
      · have : Dict.get? l c = none := by
          rw [Dict.get?_eq_none_iff]; subst hc; exact hnp
        simp only [this, hc, if_true]
        rw [c1]
        simp [hc]
      · simp only [hc, if_false]
        cases Dict.get? l c with
        | none => simp only; rw [c1, if_neg (Ne.symm hc)]
        | some v =>
          simp only [hhas c (Ne.symm hc)]
          rw [c1, if_neg (Ne.symm hc)]

/-- Blocks filled one after the other. -/
theorem fillBlocks_ok {α : Type} {blk : ℕ} {data : α → Except PyErr (List (String × Fill))}
    {L : α → List (String × Fill)} {cols : List String} (hc : cols.Nodup) {es : List α}
    (hd : ∀ e ∈ es, data e = .ok (L e) ∧ (L e).map Prod.fst = cols ∧ ∀ p ∈ L e, p.2.Fits blk)
    {n : ℕ} {f : Frame} (hs : (n + es.length) * blk ≤ f.size) :
    ∃ f', fillBlocks blk (· + 1) data es n f = .ok f' ∧ f'.size = f.size ∧
      f'.names = f.names ++ (if es = [] then [] else f.created cols) ∧
      (∀ j e, es[j]? = some e → ∀ m < blk, ∀ c v, Dict.get? (L e) c = some v →
        f'.cell c ((n + j) * blk + m) = v.at m) ∧
      (∀ c i, i < n * blk ∨ (n + es.length) * blk ≤ i ∨ c ∉ cols → f'.cell c i =
        if f.Has c ∨ c ∉ cols ∨ es = [] then f.cell c i else .nan) := by
  induction es generalizing n f with
  | nil => exact ⟨f, rfl, rfl, by simp, by simp, by simp⟩
  | cons e es ih =>
    obtain ⟨hde, hce, hfe⟩ := hd e List.mem_cons_self
    have hle : (n + 1) * blk ≤ (n + (e :: es).length) * blk :=
      Nat.mul_le_mul_right _ (by simp)
    have hb : (n + 1) * blk - n * blk = blk := by
      rw [Nat.add_mul, one_mul]; omega
    obtain ⟨f1, e1, s1, n1, c1⟩ := assignAll_ok (a := n * blk) (b := (n + 1) * blk) (l := L e) (f := f)
      (by omega) (by rw [hce]; exact hc) (by rw [hb]; exact hfe)
    have e0 : n + 1 + es.length = n + (e :: es).length := by simp; omega
    obtain ⟨f2, e2, s2, n2, c2, r2⟩ := ih (fun x hx => hd x (List.mem_cons_of_mem _ hx))
      (n := n + 1) (f := f1) (by rw [s1, e0]; exact hs)
    rw [hce] at n1
    have h1 : ∀ c ∈ cols, f1.Has c := by
      intro c hcc
      rw [has_append n1]
      by_cases h : f.Has c
      · exact .inl h
      · right; simp [created, hcc, h]
    have h1' : ∀ c, c ∉ cols → (f1.Has c ↔ f.Has c) := by
      intro c hcc
      rw [has_append n1]
      simp [created, hcc]
    have hcr : f1.created cols = [] := by
      unfold created
      rw [List.map_eq_nil_iff, List.filter_eq_nil_iff]
      intro c hcc
      simp [h1 c hcc]
    have hget : ∀ c, c ∉ cols → Dict.get? (L e) c = none := by
      intro c hcc
      rw [Dict.get?_eq_none_iff]
      unfold Dict.keys
      rw [hce]; exact hcc
    have hget' : ∀ c ∈ cols, ∃ v, Dict.get? (L e) c = some v := by
      intro c hcc
      rw [← Option.isSome_iff_exists, ← Option.ne_none_iff_isSome]
      intro h
      rw [Dict.get?_eq_none_iff] at h
      unfold Dict.keys at h
      rw [hce] at h; exact h hcc
    refine ⟨f2, ?_, by rw [s2, s1], ?_, ?_, ?_⟩
    · rw [fillBlocks, hde]
      simp only [bind, Except.bind, e1]
      exact e2
    · rw [n2, n1, hcr]
      simp
    · intro j x hx m hm c v hv
      cases j with
      | zero =>
        simp only [List.getElem?_cons_zero, Option.some.injEq] at hx
        subst hx
        have hcc : c ∈ cols := by
          by_contra h
          rw [hget c h] at hv; cases hv
        have hlt : (n + 0) * blk + m < (n + 1) * blk := by rw [Nat.add_zero, Nat.add_mul, one_mul]; omega
        rw [r2 c _ (.inl hlt), if_pos (.inl (h1 c hcc)), c1, hv]
        have : n * blk ≤ (n + 0) * blk + m := by rw [Nat.add_zero]; omega
        simp only [this, hlt, and_self, if_true]
        congr 1
        rw [Nat.add_zero]; omega
      | succ j =>
        rw [List.getElem?_cons_succ] at hx
        have := c2 j x hx m hm c v hv
        have e3 : n + 1 + j = n + (j + 1) := by omega
        rwa [e3] at this
    · intro c i hi
      have hn1 : n * blk ≤ (n + 1) * blk := Nat.mul_le_mul_right _ (by omega)
      have hi' : i < (n + 1) * blk ∨ (n + (e :: es).length) * blk ≤ i ∨ c ∉ cols := by
        rcases hi with h | h | h
        · exact .inl (by omega)
        · exact .inr (.inl h)
        · exact .inr (.inr h)
      rw [← e0] at hi'
      rw [r2 c i hi']
      by_cases hcc : c ∈ cols
      · rw [if_pos (.inl (h1 c hcc)), c1]
        obtain ⟨v, hv⟩ := hget' c hcc
        rw [hv]
        have hout : ¬ (n * blk ≤ i ∧ i < (n + 1) * blk) := by
          rcases hi with h | h | h
          · omega
          · omega
          · exact absurd hcc h
        simp only [hout, if_false, hcc, not_true, false_or, or_false, reduceCtorEq]
      · rw [if_pos (.inr (.inl hcc)), if_pos (.inr (.inl hcc)), c1, hget c hcc]

/-- at most one block: what becomes of the counter does not matter -/
theorem fillBlocks_next {α : Type} {blk : ℕ} {data : α → Except PyErr (List (String × Fill))}
    {es : List α} (h : es.length ≤ 1) (next next' : ℕ → ℕ) (n : ℕ) (f : Frame) :
    fillBlocks blk next data es n f = fillBlocks blk next' data es n f := by
  match es, h with
  | [], _ => rfl
  | [e], _ => rfl

end Frame

/-! ### Ranges -/

/-- the pairs (scenario, time) in order -/
def pairs (n h : ℕ) : List (ℕ × ℕ) := (List.range n).flatMap fun k => (List.range h).map fun t => (k, t)

theorem mem_pairs {n h : ℕ} {p : ℕ × ℕ} : p ∈ pairs n h ↔ p.1 < n ∧ p.2 < h := by
  obtain ⟨k, t⟩ := p
  simp [pairs]

theorem range_mul (n h : ℕ) : List.range (n * h) = (pairs n h).map fun p => p.1 * h + p.2 := by
  unfold pairs
  induction n with
  | zero => simp
  | succ n ih =>
    rw [Nat.add_mul, one_mul, List.range_add, ih, List.range_succ, List.flatMap_append,
      List.map_append]
    simp [Function.comp_def]

theorem length_pairs (n h : ℕ) : (pairs n h).length = n * h := by
  have := congrArg List.length (range_mul n h)
  simpa using this.symm

theorem pairs_lt {n h : ℕ} {p : ℕ × ℕ} (hp : p ∈ pairs n h) : p.1 * h + p.2 < n * h :=
  idx_lt (mem_pairs.mp hp).1 (mem_pairs.mp hp).2

theorem map_range_blocks {α β : Type} (l : List α) (b : ℕ) (F : ℕ → β) :
    (List.range (l.length * b)).map F =
      l.zipIdx.flatMap fun e => (List.range b).map fun m => F (e.2 * b + m) := by
  rw [range_mul]
  unfold pairs
  rw [List.map_map, List.map_flatMap]
  have : List.range l.length = l.zipIdx.map Prod.snd := by
    rw [List.zipIdx_map_snd, List.range_eq_range']
  rw [this, List.flatMap_map]
  simp [Function.comp_def]

/-! ### The order on keys -/

namespace Cell

theorem le_total (a b : Cell) : a.le b = true ∨ b.le a = true := by
  rcases a with a | a | (_ | _) | _ <;> rcases b with b | b | (_ | _) | _ <;> simp [le, _root_.le_total, String.le_total]

theorem le_trans {a b c : Cell} (h : a.le b = true) (h' : b.le c = true) : a.le c = true := by
  rcases a with a | a | (_ | _) | _ <;> rcases b with b | b | (_ | _) | _ <;> rcases c with c | c | (_ | _) | _ <;>
    simp_all [le]
  · exact _root_.le_trans h h'
  · exact String.le_trans h h'

theorem le_antisymm {a b : Cell} (h : a.le b = true) (h' : b.le a = true) : a = b := by
  rcases a with a | a | (_ | _) | _ <;> rcases b with b | b | (_ | _) | _ <;> simp_all [le]
  · exact _root_.le_antisymm h h'
  · exact String.le_antisymm h h'

theorem keyLe_total (a b : List Cell) : keyLe a b = true ∨ keyLe b a = true := by
  induction a generalizing b with
  | nil => simp [keyLe]
  | cons x l ih =>
    cases b with
    | nil => simp [keyLe]
    | cons y m =>
      by_cases h : x = y
      · subst h; simpa [keyLe] using ih m
      · simpa [keyLe, h, Ne.symm h] using le_total x y

theorem keyLe_antisymm {a b : List Cell} (h : keyLe a b = true) (h' : keyLe b a = true) : a = b := by
  induction a generalizing b with
  | nil => cases b with
    | nil => rfl
    | cons => simp [keyLe] at h'
  | cons x l ih =>
    cases b with
    | nil => simp [keyLe] at h
    | cons y m =>
      by_cases hxy : x = y
      · subst hxy
        simp only [keyLe, if_true] at h h'
        rw [ih h h']
      · simp only [keyLe, hxy, Ne.symm hxy, if_false] at h h'
        exact absurd (le_antisymm h h') hxy

theorem keyLe_trans {a b c : List Cell} (h : keyLe a b = true) (h' : keyLe b c = true) :
    keyLe a c = true := by
  induction a generalizing b c with
  | nil => simp [keyLe]
  | cons x l ih =>
    cases b with
    | nil => simp [keyLe] at h
    | cons y m =>
      cases c with
      | nil => simp [keyLe] at h'
      | cons z o =>
        simp only [keyLe] at h h' ⊢
        by_cases h1 : x = y
        · subst h1
          simp only [if_true] at h
          by_cases h2 : x = z
          · subst h2
            simp only [if_true] at h' ⊢
            exact ih h h'
          · simpa [h2] using h'
        · simp only [h1, if_false] at h
          by_cases h2 : y = z
          · subst h2
            simpa [h1] using h
          · simp only [h2, if_false] at h'
            by_cases h3 : x = z
            · subst h3
              exact absurd (le_antisymm h h') h1
            · simpa [h3] using le_trans h h'

instance : Std.Total (fun a b : List Cell => keyLe a b = true) := ⟨keyLe_total⟩
instance : IsTrans (List Cell) (fun a b : List Cell => keyLe a b = true) := ⟨fun _ _ _ => keyLe_trans⟩
instance : Std.Antisymm (fun a b : List Cell => keyLe a b = true) := ⟨fun _ _ => keyLe_antisymm⟩
instance : Std.Total (fun a b : Cell => le a b = true) := ⟨le_total⟩
instance : IsTrans Cell (fun a b : Cell => le a b = true) := ⟨fun _ _ _ => le_trans⟩
instance : Std.Antisymm (fun a b : Cell => le a b = true) := ⟨fun _ _ => le_antisymm⟩

end Cell

end Hadar
