import Verif.Proofs.Text

/-!
# Texts of objects can be read back
-/

namespace Hadar

open Spec PyObj

variable {T : Texts} {P : NdArray → Prop}

/-- texts of `f` can be read at the start of a text -/
def Readable {α : Type} (S : α → Prop) (f : α → String) : Prop :=
  ∀ x y (r r' : List Char), S x → S y → (f x).toList ++ r = (f y).toList ++ r' → x = y ∧ r = r'

theorem lit {l : String} {r r' : List Char} (h : l.toList ++ r = l.toList ++ r') : r = r' := List.append_cancel_left h

theorem Readable.then {α : Type} {S : α → Prop} {f : α → String} (hf : Readable S f) {x y : α} (hx : S x) (hy : S y) {l : String}
    {r r' : List Char} (h : (f x).toList ++ (l.toList ++ r) = (f y).toList ++ (l.toList ++ r')) : x = y ∧ r = r' := by
  obtain ⟨h1, h2⟩ := hf x y _ _ hx hy h
  exact ⟨h1, lit h2⟩

theorem token_chars : ∀ {u u' r r' : List Char} {d d' : Char} (_ : ∀ c ∈ u, c ≠ d') (_ : ∀ c ∈ u', c ≠ d)
    (_ : u ++ d :: r = u' ++ d' :: r'), u = u' ∧ d :: r = d' :: r'
  | [], [], _, _, _, _, _, _, h => ⟨rfl, h⟩
  | [], b :: u', _, _, _, _, _, hu', h => by
    simp only [List.nil_append, List.cons_append, List.cons.injEq] at h
    exact absurd h.1.symm (hu' b (by simp))
  | a :: u, [], _, _, _, _, hu, _, h => by
    simp only [List.nil_append, List.cons_append, List.cons.injEq] at h
    exact absurd h.1 (hu a (by simp))
  | a :: u, b :: u', _, _, _, _, hu, hu', h => by
    simp only [List.cons_append, List.cons.injEq] at h
    obtain ⟨h1, h2⟩ := token_chars (fun c hc => hu c (by simp [hc])) (fun c hc => hu' c (by simp [hc])) h.2
    exact ⟨by rw [h.1, h1], h2⟩

/-- a text without commas nor closing parentheses ends where the first one is -/
theorem token_then {u u' l : String} (hu : Token u) (hu' : Token u') {r r' : List Char}
    (hl : l.toList.head? = some ',' ∨ l.toList.head? = some ')')
    (h : u.toList ++ (l.toList ++ r) = u'.toList ++ (l.toList ++ r')) : u = u' ∧ r = r' := by
  obtain ⟨d, m, hm⟩ : ∃ d m, l.toList = d :: m := by
    cases e : l.toList with
    | nil => rw [e] at hl; simp at hl
    | cons d m => exact ⟨d, m, rfl⟩
  have hd : d = ',' ∨ d = ')' := by rw [hm] at hl; simpa using hl
  have h' := h
  rw [hm, List.cons_append, List.cons_append] at h'
  obtain ⟨h1, h2⟩ := token_chars (fun c hc => by rcases hd with rfl | rfl; exacts [(hu c hc).1, (hu c hc).2])
    (fun c hc => by rcases hd with rfl | rfl; exacts [(hu' c hc).1, (hu' c hc).2]) h'
  exact ⟨String.toList_injective h1, List.append_cancel_left (List.cons.inj h2).2⟩

theorem Spec.PlainText.token {u : String} (h : PlainText u) : Token u := fun c hc => ⟨(h c hc).1, (h c hc).2.1⟩

theorem num_then (hT : LawfulTexts T P) {q q' : ℚ} {l : String} {r r' : List Char}
    (hl : l.toList.head? = some ',' ∨ l.toList.head? = some ')')
    (h : (T.num q).toList ++ (l.toList ++ r) = (T.num q').toList ++ (l.toList ++ r')) : q = q' ∧ r = r' := by
  obtain ⟨h1, h2⟩ := token_then (hT.numPlain q).token (hT.numPlain q').token hl h
  exact ⟨hT.num h1, h2⟩

theorem array_then (hT : LawfulTexts T P) {a b : NdArray} (ha : P a) (hb : P b) {l : String} {r r' : List Char}
    (hl : l.toList.head? = some ',' ∨ l.toList.head? = some ')')
    (h : (T.array a).toList ++ (l.toList ++ r) = (T.array b).toList ++ (l.toList ++ r')) : a = b ∧ r = r' := by
  obtain ⟨h1, h2⟩ := token_then (hT.arrayToken a) (hT.arrayToken b) hl h
  exact ⟨hT.array a b ha hb h1, h2⟩

theorem place_then (hT : LawfulTexts T P) {i j : ℕ} {l : String} {r r' : List Char}
    (hl : l.toList.head? = some ',' ∨ l.toList.head? = some ')')
    (h : (T.place i).toList ++ (l.toList ++ r) = (T.place j).toList ++ (l.toList ++ r')) : i = j ∧ r = r' := by
  obtain ⟨h1, h2⟩ := token_then (hT.place i) (hT.place j) hl h
  exact ⟨hT.places h1, h2⟩

theorem readable_quote (hT : LawfulTexts T P) : Readable (fun _ => True) T.quote := by
  intro x y r r' _ _ h
  have e : T.quote x ++ String.ofList r = T.quote y ++ String.ofList r' := by
    apply String.toList_injective
    simpa [String.toList_append] using h
  obtain rfl := hT.quote _ _ _ _ e
  exact ⟨rfl, List.append_cancel_left h⟩

theorem readable_arrayRepr (hT : LawfulTexts T P) : Readable P T.arrayRepr := by
  intro x y r r' hx hy h
  have e : T.arrayRepr x ++ String.ofList r = T.arrayRepr y ++ String.ofList r' := by
    apply String.toList_injective
    simpa [String.toList_append] using h
  obtain rfl := hT.arrayRepr _ _ _ _ hx hy e
  exact ⟨rfl, List.append_cancel_left h⟩

/-- two literals that do not start alike -/
theorem lit_ne {l l' : String} {r r' : List Char} (hl : l.toList ≠ []) (hl' : l'.toList ≠ [])
    (hne : l.toList.head? ≠ l'.toList.head?) (h : l.toList ++ r = l'.toList ++ r') : False := by
  have := congrArg List.head? h
  rw [List.head?_append_of_ne_nil _ hl, List.head?_append_of_ne_nil _ hl'] at this
  exact hne this

/-! ### Lists and dicts -/

/-- texts of `f` can be read when they are followed by a comma or by `e` -/
def ReadableUpTo {α : Type} (e : Char) (S : α → Prop) (f : α → String) : Prop :=
  ∀ x y (d d' : Char) (r r' : List Char), S x → S y → d = ',' ∨ d = e → d' = ',' ∨ d' = e →
    (f x).toList ++ d :: r = (f y).toList ++ d' :: r' → x = y ∧ d :: r = d' :: r'

theorem Readable.upTo {α : Type} {S : α → Prop} {f : α → String} (hf : Readable S f) (e : Char) : ReadableUpTo e S f :=
  fun x y _ _ _ _ hx hy _ _ h => hf x y _ _ hx hy h

theorem commaJoined_read {α : Type} {S : α → Prop} {f : α → String} {e : Char} (hf : ReadableUpTo e S f) (he : e ≠ ',')
    (hs : ∀ x, ∃ c ∈ (f x).toList.head?, c ≠ e) : ∀ (l l' : List α) (r r' : List Char) (_ : ∀ x ∈ l, S x) (_ : ∀ x ∈ l', S x)
    (_ : (", ".intercalate (l.map f)).toList ++ e :: r = (", ".intercalate (l'.map f)).toList ++ e :: r'), l = l' ∧ r = r' := by
  have comma : ", ".toList = [',', ' '] := rfl
  have hs' : ∀ x, ∃ c r, (f x).toList = c :: r ∧ c ≠ e := by
    intro x
    obtain ⟨c, h, hc⟩ := hs x
    cases k : (f x).toList with
    | nil => rw [k] at h; cases h
    | cons d r => rw [k] at h; cases h; exact ⟨_, r, rfl, hc⟩
  have start : ∀ y (l : List α), ∃ c r, (", ".intercalate ((y :: l).map f)).toList = c :: r ∧ c ≠ e := by
    intro y l
    obtain ⟨c, q, hq, hc⟩ := hs' y
    cases l with
    | nil => exact ⟨c, q, by simp only [List.map_nil, List.map_cons, String.intercalate_singleton, hq], hc⟩
    | cons z l =>
      exact ⟨c, _, by simp only [List.map_cons, String.intercalate_cons_cons, String.toList_append, hq, List.cons_append]; rfl, hc⟩
  intro l
  induction l with
  | nil =>
    intro l' r r' _ _ h
    cases l' with
    | nil => simpa using h
    | cons y l' =>
      obtain ⟨c, q, hq, hc⟩ := start y l'
      rw [hq] at h
      simp at h
      exact absurd h.1.symm hc
  | cons x l ih =>
    intro l' r r' hx hy h
    cases l' with
    | nil =>
      obtain ⟨c, q, hq, hc⟩ := start x l
      rw [hq] at h
      simp at h
      exact absurd h.1 hc
    | cons y l' =>
      have sx := hx x (by simp)
      have sy := hy y (by simp)
      cases l with
      | nil =>
        cases l' with
        | nil =>
          simp only [List.map_nil, List.map_cons, String.intercalate_singleton] at h
          obtain ⟨h1, h2⟩ := hf _ _ _ _ _ _ sx sy (.inr rfl) (.inr rfl) h
          exact ⟨by rw [h1], (List.cons.inj h2).2⟩
        | cons z l' =>
          simp only [List.map_nil, List.map_cons, String.intercalate_singleton, String.intercalate_cons_cons, String.toList_append,
            List.append_assoc, comma] at h
          obtain ⟨-, h2⟩ := hf _ _ _ _ _ _ sx sy (.inr rfl) (.inl rfl) h
          exact absurd (List.cons.inj h2).1 he
      | cons w l =>
        cases l' with
        | nil =>
          simp only [List.map_nil, List.map_cons, String.intercalate_singleton, String.intercalate_cons_cons, String.toList_append,
            List.append_assoc, comma] at h
          obtain ⟨-, h2⟩ := hf _ _ _ _ _ _ sx sy (.inl rfl) (.inr rfl) h
          exact absurd (List.cons.inj h2).1.symm he
        | cons z l' =>
          rw [List.map_cons, List.map_cons, List.map_cons, List.map_cons, String.intercalate_cons_cons, String.intercalate_cons_cons,
            ← List.map_cons, ← List.map_cons] at h
          simp only [String.toList_append, List.append_assoc, comma] at h
          obtain ⟨h1, h2⟩ := hf _ _ _ _ _ _ sx sy (.inl rfl) (.inl rfl) h
          have h2 := (List.cons.inj (List.cons.inj h2).2).2
          obtain ⟨h3, h4⟩ := ih (z :: l') r r' (fun a ha => hx a (by simp [ha])) (fun a ha => hy a (by simp [ha])) h2
          exact ⟨by rw [h1, h3], h4⟩

theorem head_append {c : Char} {s : String} (h : s.toList.head? = some c) (u : String) : (s ++ u).toList.head? = some c := by
  rw [String.toList_append]
  cases e : s.toList with
  | nil => rw [e] at h; cases h
  | cons d r => rw [e] at h; exact h

/-- what a text starts with -/
macro "starts" : tactic => `(tactic| (repeat (first | apply head_append | decide)))

theorem readable_bracket {α : Type} {S : α → Prop} {f : α → String} (hf : ReadableUpTo ']' S f)
    (hs : ∀ x, ∃ c ∈ (f x).toList.head?, c ≠ ']') : Readable (fun l : List α => ∀ x ∈ l, S x) (fun l => bracket (l.map f)) := by
  intro l l' r r' hl hl' h
  simp only [bracket, String.toList_append, List.append_assoc] at h
  exact commaJoined_read hf (by decide) hs l l' r r' hl hl' (lit h)

theorem readable_brace {α : Type} {S : α → Prop} {f : α → String} (hf : ReadableUpTo '}' S f)
    (hs : ∀ x, ∃ c ∈ (f x).toList.head?, c ≠ '}') : Readable (fun l : List α => ∀ x ∈ l, S x) (fun l => brace (l.map f)) := by
  intro l l' r r' hl hl' h
  simp only [brace, String.toList_append, List.append_assoc] at h
  exact commaJoined_read hf (by decide) hs l l' r r' hl hl' (lit h)

theorem quote_start (hT : LawfulTexts T P) (s : String) : ∃ c ∈ (T.quote s).toList.head?, c ≠ '}' ∧ c ≠ ')' := by
  rcases hT.quoteStart s with h | h
  · exact ⟨_, h, by decide⟩
  · exact ⟨_, h, by decide⟩

theorem readable_tuple (hT : LawfulTexts T P) : Readable (fun _ => True) (tupleText T) := by
  have hq := readable_quote hT
  have comma : ", ".toList = [',', ' '] := rfl
  have tail : ",)".toList = [',', ')'] := rfl
  have one : ∀ (a : String) (l : List String) (r r' : List Char), l.length ≠ 1 →
      (T.quote a).toList ++ (",)".toList ++ r) = (", ".intercalate (l.map T.quote)).toList ++ (")".toList ++ r') → False := by
    intro a l r r' hl h
    match l, hl with
    | [], _ =>
      obtain ⟨c, hc, -, hne⟩ := quote_start hT a
      cases k : (T.quote a).toList with
      | nil => rw [k] at hc; cases hc
      | cons d m =>
        rw [k] at hc h
        cases hc
        simp at h
        exact hne h.1
    | b :: d :: l, _ =>
      rw [List.map_cons, List.map_cons, String.intercalate_cons_cons] at h
      simp only [String.toList_append, List.append_assoc, comma, tail] at h
      have := (hq _ _ _ _ trivial trivial h).2
      simp at this
  have form : ∀ l : List String, (∃ a, l = [a] ∧ tupleText T l = "(" ++ T.quote a ++ ",)") ∨
      (l.length ≠ 1 ∧ tupleText T l = "(" ++ ", ".intercalate (l.map T.quote) ++ ")") := by
    intro l
    match l with
    | [] => exact .inr ⟨by simp, rfl⟩
    | [a] => exact .inl ⟨a, rfl, rfl⟩
    | a :: b :: l => exact .inr ⟨by simp, rfl⟩
  intro l l' r r' _ _ h
  rcases form l with ⟨a, rfl, e⟩ | ⟨hl, e⟩ <;> rcases form l' with ⟨b, rfl, e'⟩ | ⟨hl', e'⟩ <;> rw [e, e'] at h <;>
    simp only [String.toList_append, List.append_assoc] at h <;> have h := lit h
  · obtain ⟨h1, h2⟩ := hq.then trivial trivial h
    exact ⟨by rw [h1], h2⟩
  · exact (one a l' r r' hl' h).elim
  · exact (one b l r' r hl h.symm).elim
  · exact commaJoined_read (hq.upTo _) (by decide) (fun x => by obtain ⟨c, hc, -, hne⟩ := quote_start hT x; exact ⟨c, hc, hne⟩) l l' r r'
      (fun _ _ => trivial) (fun _ _ => trivial) h

theorem readable_sources (hT : LawfulTexts T P) {α : Type} {S : α → Prop} {f : α → String} (hf : Readable S f) :
    Readable (fun l : List (List String × α) => ∀ p ∈ l, S p.2) (fun l => brace (l.map fun p => tupleText T p.1 ++ ": " ++ f p.2)) := by
  refine readable_brace (S := fun p : List String × α => S p.2) (Readable.upTo ?_ _) ?_
  · intro p q r r' hp hq h
    simp only [String.toList_append, List.append_assoc] at h
    obtain ⟨h1, h⟩ := (readable_tuple hT).then trivial trivial h
    obtain ⟨h2, h⟩ := hf _ _ _ _ hp hq h
    exact ⟨Prod.ext h1 h2, h⟩
  · rintro ⟨l, x⟩
    refine ⟨'(', ?_, by decide⟩
    apply head_append; apply head_append
    match l with
    | [a] => unfold tupleText; starts
    | [] => unfold tupleText; starts
    | a :: b :: l => unfold tupleText; starts

theorem readable_names (hT : LawfulTexts T P) {α : Type} {S : α → Prop} {f : α → String} (hf : Readable S f) :
    Readable (fun l : List (String × α) => ∀ p ∈ l, S p.2) (fun l => brace (l.map fun p => T.quote p.1 ++ ": " ++ f p.2)) := by
  refine readable_brace (S := fun p : String × α => S p.2) (Readable.upTo ?_ _) ?_
  · intro p q r r' hp hq h
    simp only [String.toList_append, List.append_assoc] at h
    obtain ⟨h1, h⟩ := (readable_quote hT).then trivial trivial h
    obtain ⟨h2, h⟩ := hf _ _ _ _ hp hq h
    exact ⟨Prod.ext h1 h2, h⟩
  · rintro ⟨s, x⟩
    obtain ⟨c, hc, hne, -⟩ := quote_start hT s
    exact ⟨c, head_append (head_append hc _) _, hne⟩

/-! ### Series and elements -/

theorem readable_value (hT : LawfulTexts T P) : Readable (ArrayOf P) (valueText T) := by
  rintro ⟨k, h, n⟩ ⟨k', h', n'⟩ r r' hx hy e
  cases k <;> cases k' <;> simp only [valueText, String.toList_append, List.append_assoc] at e <;>
    first
    | exact (lit_ne (by decide) (by decide) (by decide) e).elim
    | skip
  · obtain ⟨h1, e1⟩ := num_then hT (.inl (by decide)) (lit (lit e))
    obtain ⟨h2, e2⟩ := num_then hT (.inl (by decide)) e1
    obtain ⟨h3, e3⟩ := num_then hT (.inr (by decide)) e2
    exact ⟨by rw [Nat.cast_injective h1, Nat.cast_injective h2, h3], e3⟩
  · obtain ⟨h1, e1⟩ := num_then hT (.inl (by decide)) (lit (lit e))
    obtain ⟨h2, e2⟩ := num_then hT (.inl (by decide)) e1
    obtain ⟨h3, e3⟩ := array_then hT (hx _ (by simp)) (hy _ (by simp)) (.inr (by decide)) e2
    exact ⟨by rw [Nat.cast_injective h1, Nat.cast_injective h2, h3], e3⟩
  · obtain ⟨h1, e1⟩ := num_then hT (.inl (by decide)) (lit (lit e))
    obtain ⟨h2, e2⟩ := num_then hT (.inl (by decide)) e1
    obtain ⟨h3, e3⟩ := array_then hT (hx _ (by simp)) (hy _ (by simp)) (.inr (by decide)) e2
    exact ⟨by rw [Nat.cast_injective h1, Nat.cast_injective h2, h3], e3⟩
  · obtain ⟨h1, e1⟩ := num_then hT (.inl (by decide)) (lit (lit e))
    obtain ⟨h2, e2⟩ := num_then hT (.inl (by decide)) e1
    obtain ⟨h3, e3⟩ := array_then hT (hx _ (by simp)) (hy _ (by simp)) (.inr (by decide)) e2
    exact ⟨by rw [Nat.cast_injective h1, Nat.cast_injective h2, h3], e3⟩

theorem value_start (v : NumVal) : ∃ c ∈ (valueText T v).toList.head?, c ∈ ['S', 'M', 'R', 'C'] := by
  obtain ⟨k, h, n⟩ := v
  cases k
  · exact ⟨'S', by unfold valueText; starts, by decide⟩
  · exact ⟨'M', by unfold valueText; starts, by decide⟩
  · exact ⟨'R', by unfold valueText; starts, by decide⟩
  · exact ⟨'C', by unfold valueText; starts, by decide⟩

theorem field_then (hT : LawfulTexts T P) {x y : ConvField} (hx : ∀ v, x = .val v → ArrayOf P v) (hy : ∀ v, y = .val v → ArrayOf P v)
    {l : String} {r r' : List Char}
    (h : (fieldText T x).toList ++ (l.toList ++ r) = (fieldText T y).toList ++ (l.toList ++ r')) : x = y ∧ r = r' := by
  have ne : ∀ (v : NumVal) (u u' : List Char), (T.num 0).toList ++ u = (valueText T v).toList ++ u' → False := by
    intro v u u' e
    obtain ⟨c, hc, hd⟩ := hT.numStart 0
    obtain ⟨c', hc', hd'⟩ := value_start (T := T) v
    cases k : (T.num 0).toList with
    | nil => rw [k] at hc; cases hc
    | cons a m =>
      cases k' : (valueText T v).toList with
      | nil => rw [k'] at hc'; cases hc'
      | cons a' m' =>
        rw [k] at hc e
        rw [k'] at hc' e
        cases hc
        cases hc'
        have := (List.cons.inj e).1
        subst this
        revert hd'
        simp only [List.mem_cons, List.not_mem_nil, or_false]
        rintro (rfl | rfl | rfl | rfl) <;> revert hd <;> decide
  cases x with
  | int0 =>
    cases y with
    | int0 => exact ⟨rfl, lit (lit h)⟩
    | val v => exact (ne v _ _ h).elim
  | val v =>
    cases y with
    | int0 => exact (ne v _ _ h.symm).elim
    | val w =>
      obtain ⟨h1, h2⟩ := (readable_value hT).then (hx v rfl) (hy w rfl) h
      exact ⟨by rw [h1], h2⟩

theorem readable_Consumption (hT : LawfulTexts T P) : Readable (fun c : Consumption => Token c.name ∧ ArrayOf P c.cost ∧ ArrayOf P c.quantity) (consumptionText T) := by
  intro x y r r' hx hy e
  unfold consumptionText at e
  simp only [String.toList_append, List.append_assoc] at e
  replace e := lit e
  obtain ⟨h0, e0⟩ := (readable_value hT).then (hx.2.1) (hy.2.1) e
  obtain ⟨h1, e1⟩ := token_then (hx.1) (hy.1) (.inl (by decide)) e0
  obtain ⟨h2, e2⟩ := (readable_value hT).then (hx.2.2) (hy.2.2) e1
  refine ⟨?_, e2⟩
  cases x; cases y
  simp only at h0 h1 h2
  simp only [h0, h1, h2]

theorem readable_Production (hT : LawfulTexts T P) : Readable (fun c : Production => Token c.name ∧ ArrayOf P c.cost ∧ ArrayOf P c.quantity) (productionText T) := by
  intro x y r r' hx hy e
  unfold productionText at e
  simp only [String.toList_append, List.append_assoc] at e
  replace e := lit e
  obtain ⟨h0, e0⟩ := (readable_value hT).then (hx.2.1) (hy.2.1) e
  obtain ⟨h1, e1⟩ := token_then (hx.1) (hy.1) (.inl (by decide)) e0
  obtain ⟨h2, e2⟩ := (readable_value hT).then (hx.2.2) (hy.2.2) e1
  refine ⟨?_, e2⟩
  cases x; cases y
  simp only at h0 h1 h2
  simp only [h0, h1, h2]

theorem readable_Link (hT : LawfulTexts T P) : Readable (fun c : Link => Token c.dest ∧ ArrayOf P c.cost ∧ ArrayOf P c.quantity) (linkText T) := by
  intro x y r r' hx hy e
  unfold linkText at e
  simp only [String.toList_append, List.append_assoc] at e
  replace e := lit e
  obtain ⟨h0, e0⟩ := (readable_value hT).then (hx.2.1) (hy.2.1) e
  obtain ⟨h1, e1⟩ := token_then (hx.1) (hy.1) (.inl (by decide)) e0
  obtain ⟨h2, e2⟩ := (readable_value hT).then (hx.2.2) (hy.2.2) e1
  refine ⟨?_, e2⟩
  cases x; cases y
  simp only at h0 h1 h2
  simp only [h0, h1, h2]

theorem readable_Storage (hT : LawfulTexts T P) : Readable (fun c : Storage => Token c.name ∧ ArrayOf P c.capacity ∧ ArrayOf P c.cost ∧ ArrayOf P c.eff ∧ ArrayOf P c.flowIn ∧ ArrayOf P c.flowOut) (storageText T) := by
  intro x y r r' hx hy e
  unfold storageText at e
  simp only [String.toList_append, List.append_assoc] at e
  replace e := lit e
  obtain ⟨h0, e0⟩ := (readable_value hT).then (hx.2.1) (hy.2.1) e
  obtain ⟨h1, e1⟩ := (readable_value hT).then (hx.2.2.1) (hy.2.2.1) e0
  obtain ⟨h2, e2⟩ := (readable_value hT).then (hx.2.2.2.1) (hy.2.2.2.1) e1
  obtain ⟨h3, e3⟩ := (readable_value hT).then (hx.2.2.2.2.1) (hy.2.2.2.2.1) e2
  obtain ⟨h4, e4⟩ := (readable_value hT).then (hx.2.2.2.2.2) (hy.2.2.2.2.2) e3
  obtain ⟨h5, e5⟩ := num_then hT (.inl (by decide)) e4
  obtain ⟨h6, e6⟩ := token_then (hx.1) (hy.1) (.inr (by decide)) e5
  refine ⟨?_, e6⟩
  cases x; cases y
  simp only at h0 h1 h2 h3 h4 h5 h6
  simp only [h0, h1, h2, h3, h4, h5, h6]

theorem readable_Converter (hT : LawfulTexts T P) : Readable (fun c : Converter => (Token c.name ∧ Token c.destNetwork ∧ Token c.destNode) ∧ (∀ p ∈ c.srcRatios, ArrayOf P p.2) ∧ (∀ v, c.cost = .val v → ArrayOf P v) ∧
    (∀ v, c.max = .val v → ArrayOf P v)) (converterText T) := by
  intro x y r r' hx hy e
  unfold converterText at e
  simp only [String.toList_append, List.append_assoc] at e
  replace e := lit e
  obtain ⟨h0, e0⟩ := field_then hT (hx.2.2.1) (hy.2.2.1) e
  obtain ⟨h1, e1⟩ := token_then (hx.1.2.1) (hy.1.2.1) (.inl (by decide)) e0
  obtain ⟨h2, e2⟩ := token_then (hx.1.2.2) (hy.1.2.2) (.inl (by decide)) e1
  obtain ⟨h3, e3⟩ := field_then hT (hx.2.2.2) (hy.2.2.2) e2
  obtain ⟨h4, e4⟩ := token_then (hx.1.1) (hy.1.1) (.inl (by decide)) e3
  obtain ⟨h5, e5⟩ := (readable_sources hT (readable_value hT)).then (hx.2.1) (hy.2.1) e4
  refine ⟨?_, e5⟩
  cases x; cases y
  simp only at h0 h1 h2 h3 h4 h5
  simp only [h0, h1, h2, h3, h4, h5]

/-- names and arrays of a node -/
def PlainNode (P : NdArray → Prop) (n : InputNode) : Prop :=
  (∀ c ∈ n.consumptions, Token c.name ∧ ArrayOf P c.cost ∧ ArrayOf P c.quantity) ∧
  (∀ c ∈ n.links, Token c.dest ∧ ArrayOf P c.cost ∧ ArrayOf P c.quantity) ∧
  (∀ c ∈ n.productions, Token c.name ∧ ArrayOf P c.cost ∧ ArrayOf P c.quantity) ∧
  ∀ c ∈ n.storages, Token c.name ∧ ArrayOf P c.capacity ∧ ArrayOf P c.cost ∧ ArrayOf P c.eff ∧ ArrayOf P c.flowIn ∧ ArrayOf P c.flowOut

theorem readable_InputNode (hT : LawfulTexts T P) : Readable (fun c : InputNode => PlainNode P c) (nodeText T) := by
  intro x y r r' hx hy e
  unfold nodeText at e
  simp only [String.toList_append, List.append_assoc] at e
  replace e := lit e
  obtain ⟨h0, e0⟩ := (readable_bracket ((readable_Consumption hT).upTo _) (fun x => ⟨'C', by unfold consumptionText; starts, by decide⟩)).then (hx.1) (hy.1) e
  obtain ⟨h1, e1⟩ := (readable_bracket ((readable_Link hT).upTo _) (fun x => ⟨'L', by unfold linkText; starts, by decide⟩)).then (hx.2.1) (hy.2.1) e0
  obtain ⟨h2, e2⟩ := (readable_bracket ((readable_Production hT).upTo _) (fun x => ⟨'P', by unfold productionText; starts, by decide⟩)).then (hx.2.2.1) (hy.2.2.1) e1
  obtain ⟨h3, e3⟩ := (readable_bracket ((readable_Storage hT).upTo _) (fun x => ⟨'S', by unfold storageText; starts, by decide⟩)).then (hx.2.2.2) (hy.2.2.2) e2
  refine ⟨?_, e3⟩
  cases x; cases y
  simp only at h0 h1 h2 h3
  simp only [h0, h1, h2, h3]

theorem readable_InputNetwork (hT : LawfulTexts T P) : Readable (fun c : InputNetwork => ∀ p ∈ c.nodes, PlainNode P p.2) (networkText T) := by
  intro x y r r' hx hy e
  unfold networkText at e
  simp only [String.toList_append, List.append_assoc] at e
  replace e := lit e
  obtain ⟨h0, e0⟩ := (readable_names hT (readable_InputNode hT)).then (hx) (hy) e
  refine ⟨?_, e0⟩
  cases x; cases y
  simp only at h0
  simp only [h0]

theorem readable_OutputConsumption (hT : LawfulTexts T P) : Readable (fun c : OutputConsumption => Token c.name ∧ P c.quantity) (outputConsumptionText T) := by
  intro x y r r' hx hy e
  unfold outputConsumptionText at e
  simp only [String.toList_append, List.append_assoc] at e
  replace e := lit e
  obtain ⟨h0, e0⟩ := token_then (hx.1) (hy.1) (.inl (by decide)) e
  obtain ⟨h1, e1⟩ := array_then hT (hx.2) (hy.2) (.inr (by decide)) e0
  refine ⟨?_, e1⟩
  cases x; cases y
  simp only at h0 h1
  simp only [h0, h1]

theorem readable_OutputProduction (hT : LawfulTexts T P) : Readable (fun c : OutputProduction => Token c.name ∧ P c.quantity) (outputProductionText T) := by
  intro x y r r' hx hy e
  unfold outputProductionText at e
  simp only [String.toList_append, List.append_assoc] at e
  replace e := lit e
  obtain ⟨h0, e0⟩ := token_then (hx.1) (hy.1) (.inl (by decide)) e
  obtain ⟨h1, e1⟩ := array_then hT (hx.2) (hy.2) (.inr (by decide)) e0
  refine ⟨?_, e1⟩
  cases x; cases y
  simp only at h0 h1
  simp only [h0, h1]

theorem readable_OutputStorage (hT : LawfulTexts T P) : Readable (fun c : OutputStorage => Token c.name ∧ P c.capacity ∧ P c.flowIn ∧ P c.flowOut) (outputStorageText T) := by
  intro x y r r' hx hy e
  unfold outputStorageText at e
  simp only [String.toList_append, List.append_assoc] at e
  replace e := lit e
  obtain ⟨h0, e0⟩ := array_then hT (hx.2.1) (hy.2.1) (.inl (by decide)) e
  obtain ⟨h1, e1⟩ := array_then hT (hx.2.2.1) (hy.2.2.1) (.inl (by decide)) e0
  obtain ⟨h2, e2⟩ := array_then hT (hx.2.2.2) (hy.2.2.2) (.inl (by decide)) e1
  obtain ⟨h3, e3⟩ := token_then (hx.1) (hy.1) (.inr (by decide)) e2
  refine ⟨?_, e3⟩
  cases x; cases y
  simp only at h0 h1 h2 h3
  simp only [h0, h1, h2, h3]

theorem readable_OutputLink (hT : LawfulTexts T P) : Readable (fun c : OutputLink => Token c.dest ∧ P c.quantity) (outputLinkText T) := by
  intro x y r r' hx hy e
  unfold outputLinkText at e
  simp only [String.toList_append, List.append_assoc] at e
  replace e := lit e
  obtain ⟨h0, e0⟩ := token_then (hx.1) (hy.1) (.inl (by decide)) e
  obtain ⟨h1, e1⟩ := array_then hT (hx.2) (hy.2) (.inr (by decide)) e0
  refine ⟨?_, e1⟩
  cases x; cases y
  simp only at h0 h1
  simp only [h0, h1]

theorem readable_OutputConverter (hT : LawfulTexts T P) : Readable (fun c : OutputConverter => Token c.name ∧ (∀ q ∈ c.flowSrc, P q.2) ∧ P c.flowDest) (outputConverterText T) := by
  intro x y r r' hx hy e
  unfold outputConverterText at e
  simp only [String.toList_append, List.append_assoc] at e
  replace e := lit e
  obtain ⟨h0, e0⟩ := array_then hT (hx.2.2) (hy.2.2) (.inl (by decide)) e
  obtain ⟨h1, e1⟩ := (readable_sources hT (readable_arrayRepr hT)).then (hx.2.1) (hy.2.1) e0
  obtain ⟨h2, e2⟩ := token_then (hx.1) (hy.1) (.inr (by decide)) e1
  refine ⟨?_, e2⟩
  cases x; cases y
  simp only at h0 h1 h2
  simp only [h0, h1, h2]

/-- names and arrays of a node of a result -/
def PlainOutput (P : NdArray → Prop) (n : OutputNode) : Prop :=
  (∀ c ∈ n.consumptions, Token c.name ∧ P c.quantity) ∧ (∀ c ∈ n.links, Token c.dest ∧ P c.quantity) ∧
  (∀ c ∈ n.productions, Token c.name ∧ P c.quantity) ∧ ∀ c ∈ n.storages, Token c.name ∧ P c.capacity ∧ P c.flowIn ∧ P c.flowOut

theorem readable_OutputNode (hT : LawfulTexts T P) : Readable (fun c : OutputNode => PlainOutput P c) (outputNodeText T) := by
  intro x y r r' hx hy e
  unfold outputNodeText at e
  simp only [String.toList_append, List.append_assoc] at e
  replace e := lit e
  obtain ⟨h0, e0⟩ := (readable_bracket ((readable_OutputConsumption hT).upTo _) (fun x => ⟨'O', by unfold outputConsumptionText; starts, by decide⟩)).then (hx.1) (hy.1) e
  obtain ⟨h1, e1⟩ := (readable_bracket ((readable_OutputLink hT).upTo _) (fun x => ⟨'O', by unfold outputLinkText; starts, by decide⟩)).then (hx.2.1) (hy.2.1) e0
  obtain ⟨h2, e2⟩ := (readable_bracket ((readable_OutputProduction hT).upTo _) (fun x => ⟨'O', by unfold outputProductionText; starts, by decide⟩)).then (hx.2.2.1) (hy.2.2.1) e1
  obtain ⟨h3, e3⟩ := (readable_bracket ((readable_OutputStorage hT).upTo _) (fun x => ⟨'O', by unfold outputStorageText; starts, by decide⟩)).then (hx.2.2.2) (hy.2.2.2) e2
  refine ⟨?_, e3⟩
  cases x; cases y
  simp only at h0 h1 h2 h3
  simp only [h0, h1, h2, h3]

theorem readable_OutputNetwork (hT : LawfulTexts T P) : Readable (fun c : OutputNetwork => ∀ p ∈ c.nodes, PlainOutput P p.2) (outputNetworkText T) := by
  intro x y r r' hx hy e
  unfold outputNetworkText at e
  simp only [String.toList_append, List.append_assoc] at e
  replace e := lit e
  obtain ⟨h0, e0⟩ := (readable_names hT (readable_OutputNode hT)).then (hx) (hy) e
  refine ⟨?_, e0⟩
  cases x; cases y
  simp only at h0
  simp only [h0]

theorem readable_numbers (hT : LawfulTexts T P) : Readable (fun _ : List ℚ => True) (fun l => bracket (l.map T.num)) := by
  have h : ReadableUpTo ']' (fun _ : ℚ => True) T.num := by
    intro x y d d' r r' _ _ hd hd' h
    have np : ∀ q : ℚ, ∀ c ∈ (T.num q).toList, ∀ d : Char, d = ',' ∨ d = ']' → c ≠ d := by
      intro q c hc d hd
      have := hT.numPlain q c hc
      rcases hd with rfl | rfl
      · exact this.1
      · exact this.2.2
    obtain ⟨h1, h2⟩ := token_chars (fun c hc => np x c hc d' hd') (fun c hc => np y c hc d hd) h
    exact ⟨hT.num (String.toList_injective h1), h2⟩
  intro l l' r r' _ _ e
  refine readable_bracket h (fun q => ?_) l l' r r' (fun _ _ => trivial) (fun _ _ => trivial) e
  obtain ⟨c, hc, hd⟩ := hT.numStart q
  refine ⟨c, hc, ?_⟩
  rintro rfl
  revert hd
  decide

theorem readable_Benchmark (hT : LawfulTexts T P) : Readable (fun _ : Benchmark => True) (benchmarkText T) := by
  intro x y r r' _ _ e
  unfold benchmarkText at e
  simp only [String.toList_append, List.append_assoc] at e
  replace e := lit e
  obtain ⟨h0, e0⟩ := num_then hT (.inl (by decide)) e
  obtain ⟨h1, e1⟩ := (readable_numbers hT).then (trivial) (trivial) e0
  obtain ⟨h2, e2⟩ := (readable_numbers hT).then (trivial) (trivial) e1
  obtain ⟨h3, e3⟩ := num_then hT (.inr (by decide)) e2
  refine ⟨?_, e3⟩
  cases x; cases y
  simp only at h0 h1 h2 h3
  simp only [h0, h1, h2, h3]

theorem plain_nodes {r : Result} (h : WrittenResult r) (ha : ResultArrays P r) : ∀ p ∈ r.networks, ∀ q ∈ p.2.nodes, PlainOutput P q.2 := by
  intro p hp q hq
  obtain ⟨h1, h2, h3, h4⟩ := h.nodes p hp q hq
  obtain ⟨a1, a2, a3, a4⟩ := ha.nodes p hp q hq
  exact ⟨fun c hc => ⟨h1 c hc, a1 c hc⟩, fun c hc => ⟨h4 c hc, a4 c hc⟩, fun c hc => ⟨h2 c hc, a2 c hc⟩, fun c hc => ⟨h3 c hc, a3 c hc⟩⟩

theorem readable_Result (hT : LawfulTexts T P) : Readable (fun c : Result => WrittenResult c ∧ ResultArrays P c) (resultText T) := by
  intro x y r r' hx hy e
  unfold resultText at e
  simp only [String.toList_append, List.append_assoc] at e
  replace e := lit e
  obtain ⟨h0, e0⟩ := (readable_Benchmark hT).then (trivial) (trivial) e
  obtain ⟨h1, e1⟩ := (readable_names hT (readable_OutputConverter hT)).then (fun p hp => ⟨hx.1.converters p hp, hx.2.converters p hp⟩) (fun p hp => ⟨hy.1.converters p hp, hy.2.converters p hp⟩) e0
  obtain ⟨h2, e2⟩ := (readable_names hT (readable_OutputNetwork hT)).then (plain_nodes hx.1 hx.2) (plain_nodes hy.1 hy.2) e1
  refine ⟨?_, e2⟩
  cases x; cases y
  simp only at h0 h1 h2
  simp only [h0, h1, h2]

theorem plain_inputs {s : Study} (h : WrittenNames s) (ha : StudyAll (ArrayOf P) s) : ∀ p ∈ s.networks, ∀ q ∈ p.2.nodes, PlainNode P q.2 := by
  intro p hp q hq
  obtain ⟨h1, h2, h3, h4⟩ := h.nodes p hp q hq
  obtain ⟨a1, a2, a3, a4⟩ := ha.1 p.1 q.1 q.2 ⟨p.2, hp, hq⟩
  refine ⟨fun c hc => ⟨h1 c hc, (a1 c hc).2, (a1 c hc).1⟩, fun c hc => ⟨h4 c hc, (a4 c hc).2, (a4 c hc).1⟩,
    fun c hc => ⟨h2 c hc, (a2 c hc).2, (a2 c hc).1⟩, fun c hc => ?_⟩
  obtain ⟨b1, b2, b3, b4, b5⟩ := a3 c hc
  exact ⟨h3 c hc, b1, b4, b5, b2, b3⟩

theorem study_read (hT : LawfulTexts T P) {i j : ℕ} {x y : Study} (hx : WrittenNames x ∧ StudyAll (ArrayOf P) x)
    (hy : WrittenNames y ∧ StudyAll (ArrayOf P) y) (e : studyText T i x = studyText T j y) : x = y ∧ i = j := by
  unfold studyText at e
  replace e := congrArg (fun s => s.toList ++ []) e
  simp only [String.toList_append, List.append_assoc] at e
  replace e := lit e
  obtain ⟨h0, e0⟩ := (readable_names hT (readable_Converter hT)).then (fun p hp => ⟨hx.1.converters p hp, hx.2.2 p hp⟩) (fun p hp => ⟨hy.1.converters p hp, hy.2.2 p hp⟩) e
  obtain ⟨h1, e1⟩ := place_then hT (.inl (by decide)) e0
  obtain ⟨h2, e2⟩ := num_then hT (.inl (by decide)) e1
  have h2 := Nat.cast_injective h2
  obtain ⟨h3, e3⟩ := num_then hT (.inl (by decide)) e2
  have h3 := Nat.cast_injective h3
  obtain ⟨h4, e4⟩ := (readable_names hT (readable_InputNetwork hT)).then (plain_inputs hx.1 hx.2) (plain_inputs hy.1 hy.2) e3
  obtain ⟨h5, e5⟩ := token_then (hx.1.version) (hy.1.version) (.inr (by decide)) e4
  refine ⟨?_, h1⟩
  cases x; cases y
  simp only at h0 h2 h3 h4 h5
  simp only [h0, h2, h3, h4, h5]

end Hadar
