import Verif.Spec.Titles
import Mathlib.Tactic.Tauto
import Std.Data.String.ToInt

/-!
# Reading titles back, word by word
-/

namespace Hadar

open Spec Viewer

instance (s : String) : Decidable (OneWord s) := inferInstanceAs (Decidable (' ' ∉ s.toList))

theorem digit_ne_blank {n : ℕ} : ' ' ∉ Nat.toDigits 10 n := by
  intro h
  have := Nat.isDigit_of_mem_toDigits (by decide) (by decide) h
  revert this
  decide

theorem oneWord_int (i : ℤ) : OneWord (toString i) := by
  unfold OneWord
  rw [Int.toString_eq_repr, Int.repr_eq_if]
  split
  · rw [Nat.toList_repr]; exact digit_ne_blank
  · simp [Nat.toList_repr, digit_ne_blank]

/-- texts of words joined with blanks -/
def joined (ws : List String) : List Char := [' '].intercalate (ws.map String.toList)

theorem joined_inj {v w : List String} (hv : ∀ x ∈ v, OneWord x) (hw : ∀ x ∈ w, OneWord x) (h1 : v ≠ []) (h2 : w ≠ [])
    (h : joined v = joined w) : v = w := by
  have e : ∀ {u : List String}, (∀ x ∈ u, OneWord x) → u ≠ [] → (joined u).splitOn ' ' = u.map String.toList := by
    intro u hu hne
    refine List.splitOn_intercalate ' ' ?_ (by simpa using hne)
    simp only [List.mem_map, forall_exists_index, and_imp]
    rintro _ x hx rfl
    exact hu x hx
  have := (e hv h1).symm.trans ((congrArg (List.splitOn ' ') h).trans (e hw h2))
  exact List.map_injective_iff.2 (fun a b => String.toList_inj.1) this

/-- the last word of a title: the time step or the scenario -/
inductive Moment : Option ℤ → Option ℤ → String → Prop
  | t (i : ℤ) : Moment (some i) none ("t=" ++ toString i)
  | scn (i : ℤ) : Moment none (some i) ("scn=" ++ toString i)

theorem Moment.inj {t t' k k' : Option ℤ} {w : String} (h : Moment t k w) (h' : Moment t' k' w) : t = t' ∧ k = k' := by
  generalize hw : w = w' at h'
  cases h <;> cases h'
  · have := congrArg String.toList hw
    simp only [String.toList_append] at this
    have := List.append_cancel_left this
    rw [Int.toString_eq_repr, Int.toString_eq_repr] at this
    simp [Int.repr_inj.1 (String.toList_inj.1 this)]
  · have := congrArg String.toList hw
    simp at this
  · have := congrArg String.toList hw
    simp at this
  · have := congrArg String.toList hw
    simp only [String.toList_append] at this
    have := List.append_cancel_left this
    rw [Int.toString_eq_repr, Int.toString_eq_repr] at this
    simp [Int.repr_inj.1 (String.toList_inj.1 this)]

theorem Moment.oneWord {t k : Option ℤ} {w : String} (h : Moment t k w) : OneWord w := by
  cases h <;> simp [OneWord] <;> exact oneWord_int _

/-- the words of titles -/
inductive Says : Told → List String → Prop
  | timelineCons (c n d : String) : Says ⟨.timeline, some (.cons, n), some d, some c, none, none⟩
      ["Consumptions", c, "for", n, "on", "node", d]
  | timelineProd (c n d : String) : Says ⟨.timeline, some (.prod, n), some d, some c, none, none⟩
      ["Production", c, "for", n, "on", "node", d]
  | timelineLink (c n d : String) : Says ⟨.timeline, some (.link, n), some d, some c, none, none⟩
      ["Link", c, "from", d, "to", n]
  | timelineSrc (n d : String) : Says ⟨.timeline, some (.srcConv, n), some d, none, none, none⟩
      ["Timeline", "converter", n, "from", "node", d]
  | timelineDest (n d : String) : Says ⟨.timeline, some (.destConv, n), some d, none, none, none⟩
      ["Timeline", "converter", n, "to", "node", d]
  | monotoneCons (n d : String) {t k : Option ℤ} {w : String} (h : Moment t k w) :
      Says ⟨.monotone, some (.cons, n), some d, none, t, k⟩ ["Monotone", "consumption", "of", n, "on", "node", d, "at", w]
  | monotoneProd (n d : String) {t k : Option ℤ} {w : String} (h : Moment t k w) :
      Says ⟨.monotone, some (.prod, n), some d, none, t, k⟩ ["Monotone", "production", "of", n, "on", "node", d, "at", w]
  | monotoneStor (n d : String) {t k : Option ℤ} {w v : String} (h : Moment t k w) (hv : OneWord v) :
      Says ⟨.monotone, some (.stor, n), some d, none, t, k⟩ ["Monotone", "storage", "of", n, "on", "node", d, v, w]
  | monotoneLink (n d : String) {t k : Option ℤ} {w : String} (h : Moment t k w) :
      Says ⟨.monotone, some (.link, n), some d, none, t, k⟩ ["Monotone", "link", "from", d, "to", n, "at", w]
  | monotoneSrc (n d : String) {t k : Option ℤ} {w : String} (h : Moment t k w) :
      Says ⟨.monotone, some (.srcConv, n), some d, none, t, k⟩ ["Timeline", "converter", n, "from", "node", d, "at", w]
  | monotoneDest (n d : String) {t k : Option ℤ} {w : String} (h : Moment t k w) :
      Says ⟨.monotone, some (.destConv, n), some d, none, t, k⟩ ["Timeline", "converter", n, "to", "node", d, "at", w]
  | gaussianCons (n d : String) {t k : Option ℤ} {w : String} (h : Moment t k w) :
      Says ⟨.gaussian, some (.cons, n), some d, none, t, k⟩ ["Gaussian", "consumption", "of", n, "on", "node", d, "at", w]
  | gaussianProd (n d : String) {t k : Option ℤ} {w : String} (h : Moment t k w) :
      Says ⟨.gaussian, some (.prod, n), some d, none, t, k⟩ ["Gaussian", "production", "of", n, "on", "node", d, "at", w]
  | gaussianLink (n d : String) {t k : Option ℤ} {w : String} (h : Moment t k w) :
      Says ⟨.gaussian, some (.link, n), some d, none, t, k⟩ ["Gaussian", "link", "from", d, "to", n, "at", w]
  | gaussianSrc (n d : String) {t k : Option ℤ} {w : String} (h : Moment t k w) :
      Says ⟨.gaussian, some (.srcConv, n), some d, none, t, k⟩ ["Gaussian", "converter", n, "from", "node", d, "at", w]
  | gaussianDest (n d : String) {t k : Option ℤ} {w : String} (h : Moment t k w) :
      Says ⟨.gaussian, some (.destConv, n), some d, none, t, k⟩ ["Gaussian", "converter", n, "to", "node", d, "at", w]
  | candles (n d : String) {k : Option ℤ} {w : String} (h : Moment none k w) :
      Says ⟨.candles, some (.stor, n), some d, none, none, k⟩ ["Stockage", "capacity", "of", n, "on", "node", d, "for", w]
  | stack (d : String) : Says ⟨.stack, none, some d, none, none, none⟩ ["Stack", "for", "node", d]
  | matrix (w : String) : Says ⟨.matrix, none, none, none, none, none⟩ ["RAC", "Matrix", w, "%", "passed"]
  | map {t k : Option ℤ} {v w : String} (hv : Moment t none v) (hw : Moment none k w) :
      Says ⟨.map, none, none, none, t, k⟩ ["Exchange", "map", "at", v, w]

theorem Says.inj {x y : Told} {w : List String} (hx : Says x w) (hy : Says y w) : x = y := by
  generalize hw : w = w' at hy
  cases hx <;> cases hy <;> simp only [List.cons.injEq, reduceCtorEq, String.reduceEq, false_and, and_false] at hw
  all_goals simp only [true_and, and_true] at hw
  all_goals simp only [Told.mk.injEq, Option.some.injEq, Prod.mk.injEq, true_and, and_true]
  all_goals first
    | tauto
    | (rename_i h _ _ _ _ _ h'; obtain ⟨rfl, rfl, rfl⟩ := hw; simp [h.inj h'])
    | skip
  case monotoneStor.monotoneStor h _ _ _ _ _ _ _ h' _ => obtain ⟨rfl, rfl, rfl, rfl⟩ := hw; simp [h.inj h']
  case candles.candles h _ _ _ _ h' => obtain ⟨rfl, rfl, rfl⟩ := hw; simp [h.inj h']
  case map.map hv _ _ hv' => exact (hv.inj hv').1

/-- words, joined with blanks into the title -/
def Reads (x : Told) (s : String) : Prop :=
  ∃ ws, Says x ws ∧ s.toList = joined ws ∧ ∀ w ∈ ws, OneWord w

theorem Reads.inj {x y : Told} {s : String} (hx : Reads x s) (hy : Reads y s) : x = y := by
  obtain ⟨v, h1, h2, h3⟩ := hx
  obtain ⟨w, h4, h5, h6⟩ := hy
  have hv : v ≠ [] := by cases h1 <;> simp
  have hw : w ≠ [] := by cases h4 <;> simp
  obtain rfl := joined_inj h3 h6 hv hw (h2.symm.trans h5)
  exact h1.inj h4

/-- the words of a title have no blank: literals by evaluation, others by the lemmas given -/
local macro "words" "[" ls:Lean.Parser.Tactic.simpLemma,* "]" : tactic =>
  `(tactic| (simp only [List.mem_cons, List.not_mem_nil, or_false, forall_eq_or_imp, forall_eq, true_and, and_true, $ls,*]; decide))

theorem reads_title {a : Analyzer} {c : Chart} {s : String} (hp : PlainNames c) (h : c.title a = .ok s) :
    Reads (told c) s := by
  cases c with
  | timeline x =>
    obtain ⟨g, d, κ, n, c⟩ := x
    obtain ⟨hn, hd, hc⟩ := hp
    dsimp only at hn hd hc
    cases κ <;> simp only [Chart.title, Item.timelineTitle, Except.ok.injEq, reduceCtorEq] at h <;> subst h
    · exact ⟨_, .timelineProd c n d, by simp [joined], by words [hn, hd, hc]⟩
    · exact ⟨_, .timelineCons c n d, by simp [joined], by words [hn, hd, hc]⟩
    · exact ⟨_, .timelineLink c n d, by simp [joined], by words [hn, hd, hc]⟩
    · exact ⟨_, .timelineSrc n d, by simp [joined], by words [hn, hd]⟩
    · exact ⟨_, .timelineDest n d, by simp [joined], by words [hn, hd]⟩
  | monotone x t k =>
    obtain ⟨g, d, κ, n, c⟩ := x
    obtain ⟨hn, hd, -⟩ := hp
    dsimp only at hn hd
    obtain ⟨w, hw⟩ : ∃ w, Moment t k w := by
      cases t <;> cases k <;> first | exact ⟨_, .t _⟩ | exact ⟨_, .scn _⟩ | skip
      all_goals simp [Chart.title, Item.monotoneTitle, notBoth, bind, Except.bind] at h
    have hb := hw.oneWord
    cases κ <;> cases hw <;> simp only [Chart.title, Item.monotoneTitle, notBoth, bind, Except.bind, Item.monotoneTime,
      Item.monotoneScn, Option.isSome_some, Option.isSome_none, Bool.false_eq_true, and_false, false_and, if_false,
      Except.ok.injEq, reduceCtorEq] at h <;> subst h
    · exact ⟨_, .monotoneProd n d (.t _), by simp [joined], by words [hn, hd, hb]⟩
    · exact ⟨_, .monotoneProd n d (.scn _), by simp [joined], by words [hn, hd, hb]⟩
    · exact ⟨_, .monotoneCons n d (.t _), by simp [joined], by words [hn, hd, hb]⟩
    · exact ⟨_, .monotoneCons n d (.scn _), by simp [joined], by words [hn, hd, hb]⟩
    · exact ⟨_, .monotoneStor n d (v := "at") (.t _) (by decide), by simp [joined], by words [hn, hd, hb]⟩
    · exact ⟨_, .monotoneStor n d (v := "for") (.scn _) (by decide), by simp [joined], by words [hn, hd, hb]⟩
    · exact ⟨_, .monotoneLink n d (.t _), by simp [joined], by words [hn, hd, hb]⟩
    · exact ⟨_, .monotoneLink n d (.scn _), by simp [joined], by words [hn, hd, hb]⟩
    · exact ⟨_, .monotoneSrc n d (.t _), by simp [joined], by words [hn, hd, hb]⟩
    · exact ⟨_, .monotoneSrc n d (.scn _), by simp [joined], by words [hn, hd, hb]⟩
    · exact ⟨_, .monotoneDest n d (.t _), by simp [joined], by words [hn, hd, hb]⟩
    · exact ⟨_, .monotoneDest n d (.scn _), by simp [joined], by words [hn, hd, hb]⟩
  | gaussian x t k =>
    obtain ⟨g, d, κ, n, c⟩ := x
    obtain ⟨hn, hd, -⟩ := hp
    dsimp only at hn hd
    obtain ⟨w, hw⟩ : ∃ w, Moment t k w := by
      cases t <;> cases k <;> first | exact ⟨_, .t _⟩ | exact ⟨_, .scn _⟩ | skip
      all_goals
        cases κ <;> simp [Chart.title, Item.gaussianTitle, Item.gaussianAbout, notBoth, bind, Except.bind] at h
    have hb := hw.oneWord
    cases κ <;> cases hw <;> simp only [Chart.title, Item.gaussianTitle, notBoth, bind, Except.bind, Item.gaussianAbout,
      Option.isSome_some, Option.isSome_none, Bool.false_eq_true, and_false, false_and, if_false,
      Except.ok.injEq, reduceCtorEq] at h <;> subst h
    · exact ⟨_, .gaussianProd n d (.t _), by simp [joined], by words [hn, hd, hb]⟩
    · exact ⟨_, .gaussianProd n d (.scn _), by simp [joined], by words [hn, hd, hb]⟩
    · exact ⟨_, .gaussianCons n d (.t _), by simp [joined], by words [hn, hd, hb]⟩
    · exact ⟨_, .gaussianCons n d (.scn _), by simp [joined], by words [hn, hd, hb]⟩
    · exact ⟨_, .gaussianLink n d (.t _), by simp [joined], by words [hn, hd, hb]⟩
    · exact ⟨_, .gaussianLink n d (.scn _), by simp [joined], by words [hn, hd, hb]⟩
    · exact ⟨_, .gaussianSrc n d (.t _), by simp [joined], by words [hn, hd, hb]⟩
    · exact ⟨_, .gaussianSrc n d (.scn _), by simp [joined], by words [hn, hd, hb]⟩
    · exact ⟨_, .gaussianDest n d (.t _), by simp [joined], by words [hn, hd, hb]⟩
    · exact ⟨_, .gaussianDest n d (.scn _), by simp [joined], by words [hn, hd, hb]⟩
  | candles g d n k =>
    obtain ⟨hn, hd⟩ := hp
    simp only [Chart.title, Except.ok.injEq] at h
    subst h
    exact ⟨_, .candles n d (.scn k), by simp [joined], by words [hn, hd, (Moment.scn k).oneWord]⟩
  | stack g d k pk ck =>
    simp only [Chart.title, Except.ok.injEq] at h
    subst h
    have hd : OneWord d := hp
    exact ⟨_, .stack d, by simp [joined], by words [hd]⟩
  | racMatrix g =>
    simp only [Chart.title] at h
    cases hr : Viewer.racMatrix a g with
    | error e => simp [hr, Except.map] at h
    | ok p =>
      simp only [hr, Except.map, Except.ok.injEq] at h
      subst h
      exact ⟨_, .matrix (toString p.1.floor), by simp [joined, racTitle], by words [oneWord_int]⟩
  | map g t k =>
    simp only [Chart.title, Except.ok.injEq] at h
    subst h
    exact ⟨_, .map (.t t) (.scn k), by simp [joined], by words [(Moment.scn k).oneWord, (Moment.t t).oneWord]⟩

end Hadar
