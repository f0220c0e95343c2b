import Verif.Spec.Cutting
import Verif.Proofs.Answer

/-!
# Lemmas on questions on parts
-/

namespace Hadar

open Spec

theorem get?_filter_key (P : String → Prop) [DecidablePred P] (row : Row) (c : String) :
    Dict.get? (row.filter fun p => decide (P p.1)) c = if P c then Dict.get? row c else none := by
  induction row with
  | nil => simp [Dict.get?]
  | cons p row ih =>
    rw [List.filter_cons]
    by_cases hp : P p.1
    · rw [if_pos (by simpa using hp)]
      show (if p.1 = c then some p.2 else Dict.get? _ c) = if P c then (if p.1 = c then some p.2 else Dict.get? row c) else none
      by_cases e : p.1 = c
      · rw [if_pos e, if_pos e, if_pos (e ▸ hp)]
      · rw [if_neg e, if_neg e, ih]
    · rw [if_neg (by simpa using hp), ih]
      by_cases hc : P c
      · rw [if_pos hc, if_pos hc]
        show _ = if p.1 = c then some p.2 else Dict.get? row c
        rw [if_neg fun e : p.1 = c => hp (e ▸ hc)]
      · rw [if_neg hc, if_neg hc]

theorem get?_zip_map (names : List String) (f : String → Cell) (rest : Row) (c : String) :
    Dict.get? (names.zip (names.map f) ++ rest) c = if c ∈ names then some (f c) else Dict.get? rest c := by
  induction names with
  | nil => simp
  | cons a names ih =>
    show (if a = c then some (f a) else Dict.get? (names.zip (names.map f) ++ rest) c) = _
    by_cases e : a = c
    · subst e; simp
    · rw [if_neg e, ih]
      simp [Ne.symm e]

open Classical in
/-- an answer shows the rows that match -/
theorem shows_answer {s : Study} {rows : List Row} {filters : List (IndexKind × IndexArg)} {pt : Pivot}
    (hA : Answer s rows filters pt) {cols : List String} (hc : ∀ c ∈ cols, InTable filters pt c) :
    (shows pt cols).Perm ((rows.filter fun row => decide (Matches s filters row)).map fun row => cols.map (Row.at row)) := by
  unfold shows
  refine (hA.lines.map _).trans (List.Perm.of_eq ?_)
  rw [List.map_map]
  refine List.map_congr_left fun row hrow => ?_
  obtain ⟨hrow1, hrow2⟩ := List.mem_filter.mp hrow
  refine List.map_congr_left fun c hcc => ?_
  show (Dict.get? (pt.levels.zip (pt.levels.map (Row.at row)) ++ alphabetical _) c).getD .nan = (Dict.get? row c).getD .nan
  rw [get?_zip_map]
  by_cases hl : c ∈ pt.levels
  · rw [if_pos hl]; rfl
  · rw [if_neg hl, get?_alphabetical, get?_filter_key (fun x => x ∉ (filters.map fun f => f.1.column) ∧ ∃ row' ∈ rows, Matches s filters row' ∧ Row.at row' x ≠ .nan)]
    by_cases hn : Row.at row c = .nan
    · split_ifs
      · rfl
      · exact hn.symm
    · rw [if_pos ⟨(hc c hcc).resolve_left hl, row, hrow1, by simpa using hrow2, hn⟩]

theorem possible_of_row {s : Study} {kind : IndexKind} {row : Row} (h : RowOk s kind row) (k : IndexKind) :
    HasPlace s k (Row.at row k.column) := by
  cases k <;> first | exact trivial | exact h.time | exact h.scn

theorem filter_cut {α : Type} (l : List α) (p q r : α → Bool) (h : ∀ a ∈ l, (p a = true ↔ q a = true ∨ r a = true) ∧
    ¬ (q a = true ∧ r a = true)) : (l.filter p).Perm (l.filter q ++ l.filter r) := by
  induction l with
  | nil => simp
  | cons a l ih =>
    have ih := ih fun b hb => h b (List.mem_cons_of_mem _ hb)
    have ha := h a List.mem_cons_self
    rw [List.filter_cons, List.filter_cons, List.filter_cons]
    by_cases hq : q a = true
    · have hr : ¬ r a = true := fun hr => ha.2 ⟨hq, hr⟩
      rw [if_pos (ha.1.mpr (.inl hq)), if_pos hq, if_neg hr]
      exact ih.cons a
    · by_cases hr : r a = true
      · rw [if_pos (ha.1.mpr (.inr hr)), if_neg hq, if_pos hr]
        exact (ih.cons a).trans List.perm_middle.symm
      · rw [if_neg fun hp => (ha.1.mp hp).elim hq hr, if_neg hq, if_neg hr]
        exact ih

theorem CutInTwo.matches {s : Study} {fs fs' fs'' : List (IndexKind × IndexArg)} (h : CutInTwo s fs fs' fs'') {kind : IndexKind} {row : Row}
    (hr : RowOk s kind row) :
    (Matches s fs row ↔ Matches s fs' row ∨ Matches s fs'' row) ∧ ¬ (Matches s fs' row ∧ Matches s fs'' row) := by
  unfold Matches
  induction h with
  | here k x y z rest all once =>
    simp only [List.forall_mem_cons]
    have h1 := all _ (possible_of_row hr k)
    have h2 := once _ (possible_of_row hr k)
    constructor
    · rw [h1]; tauto
    · tauto
  | there f h ih =>
    simp only [List.forall_mem_cons]
    constructor
    · rw [ih.1]; tauto
    · have := ih.2; tauto

theorem CutInTwo.kinds {s : Study} {fs fs' fs'' : List (IndexKind × IndexArg)} (h : CutInTwo s fs fs' fs'') :
    fs'.map Prod.fst = fs.map Prod.fst ∧ fs''.map Prod.fst = fs.map Prod.fst := by
  induction h with
  | here => exact ⟨rfl, rfl⟩
  | there f h ih => exact ⟨congrArg (_ :: ·) ih.1, congrArg (_ :: ·) ih.2⟩

theorem AsksLess.matches {s : Study} {fs fs' : List (IndexKind × IndexArg)} (h : AsksLess s fs fs') {kind : IndexKind} {row : Row}
    (hr : RowOk s kind row) (hm : Matches s fs row) : Matches s fs' row := by
  unfold Matches at *
  unfold AsksLess at h
  induction h with
  | nil => exact hm
  | cons h1 h2 ih =>
    rename_i f f' fs fs'
    rw [List.forall_mem_cons] at hm ⊢
    refine ⟨?_, ih hm.2⟩
    have := h1.2 _ (possible_of_row hr _) hm.1
    rw [← h1.1]
    exact this

theorem AsksLess.kinds {s : Study} {fs fs' : List (IndexKind × IndexArg)} (h : AsksLess s fs fs') : fs'.map Prod.fst = fs.map Prod.fst := by
  unfold AsksLess at h
  induction h with
  | nil => rfl
  | cons h1 _ ih => rw [List.map_cons, List.map_cons, ih, h1.1]

end Hadar
