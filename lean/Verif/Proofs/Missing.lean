import Verif.Spec.Missing
import Verif.Proofs.Asking
import Verif.Props.ViewerMap

/-!
# Lemmas on charts of what a study does not have
-/

namespace Hadar

open Spec Props

theorem mem_grid {s : Study} {R : ℕ → ℕ → Row} {row : Row} (h : row ∈ grid s R) :
    ∃ k t, k < s.nbScn ∧ t < s.horizon ∧ row = R k t := by
  simp only [grid, List.mem_flatMap, List.mem_map, List.mem_range] at h
  obtain ⟨k, hk, t, ht, rfl⟩ := h
  exact ⟨k, t, hk, ht, rfl⟩

/-- a row of a table is that of an element of the study, in one of its scenarios at one of its times -/
theorem row_inStudy {s : Study} (hb : Built s) {r : Result} {kind : IndexKind} {row : Row}
    (h : row ∈ tableRows s r kind) : ∃ g d x, ∃ k t : ℕ, InStudy s g d kind x ∧ k < s.nbScn ∧ t < s.horizon ∧
      Row.at row "network" = .str g ∧ Row.at row "node" = .str d ∧ Row.at row kind.column = .str x ∧
      Row.at row "scn" = .num k ∧ Row.at row "t" = .num t := by
  have key : ∀ {E : Type} {items : List E} {R : E → ℕ → ℕ → Row} {idf : E → String × String × String},
      Listed s r kind items R idf → (∀ e ∈ items, InStudy s (idf e).1 (idf e).2.1 kind (idf e).2.2) →
      ∃ g d x, ∃ k t : ℕ, InStudy s g d kind x ∧ k < s.nbScn ∧ t < s.horizon ∧
      Row.at row "network" = .str g ∧ Row.at row "node" = .str d ∧ Row.at row kind.column = .str x ∧
      Row.at row "scn" = .num k ∧ Row.at row "t" = .num t := by
    intro E items R idf hL hi
    rw [hL.rows] at h
    obtain ⟨e, he, hrow⟩ := List.mem_flatMap.mp h
    obtain ⟨k, t, hk, ht, rfl⟩ := mem_grid hrow
    exact ⟨_, _, _, k, t, hi e he, hk, ht, hL.at e k t⟩
  cases kind with
  | cons =>
    refine key (consumption_listed hb r) ?_
    rintro ⟨g, d, i, c⟩ he
    obtain ⟨n, hn, hc⟩ := of_mem_elements he
    exact .cons hn (List.mem_of_getElem? hc)
  | prod =>
    refine key (production_listed hb r) ?_
    rintro ⟨g, d, i, c⟩ he
    obtain ⟨n, hn, hc⟩ := of_mem_elements he
    exact .prod hn (List.mem_of_getElem? hc)
  | stor =>
    refine key (storage_listed hb r) ?_
    rintro ⟨g, d, i, c⟩ he
    obtain ⟨n, hn, hc⟩ := of_mem_elements he
    exact .stor hn (List.mem_of_getElem? hc)
  | link =>
    refine key (link_listed hb r) ?_
    rintro ⟨g, d, i, c⟩ he
    obtain ⟨n, hn, hc⟩ := of_mem_elements he
    exact .link hn (List.mem_of_getElem? hc)
  | destConv =>
    refine key (dest_listed hb r) ?_
    intro p hp
    exact .arrival hp rfl rfl
  | srcConv =>
    refine key (source_listed hb r) ?_
    intro e he
    simp only [sources, List.mem_flatMap, List.mem_map] at he
    obtain ⟨p, hp, q, hq, rfl⟩ := he
    obtain ⟨g, d, n, e, _⟩ := ((Built.inv hb).convs p hp).sources q.1 (List.mem_map_of_mem hq)
    simp only [e, List.getD_cons_zero, List.getD_cons_succ]
    refine .departure hp (q := q.2) ?_
    rw [← e]
    exact hq
  | _ => cases h

/-- a question on what there is not gets no line, or an exception if there are no converters at all -/
theorem query_missing {junk : Junk} {s : Study} {r : Result} {a : Analyzer} (hb : Built s)
    (hm : Mirrors s r) (ha : Analyzer.init junk s r = .ok a) {kind : IndexKind}
    (hk : kind.isElement = true) {g : String} {calls : List (IndexKind × IndexArg)}
    (hc : (calls.map Prod.fst).Perm [.node, .time, .scn, kind])
    (hargs : ∀ c ∈ calls, c.2 = .none ∨ ∃ x, x ≠ Cell.nan ∧ c.2 = .one x)
    (hnone : ∃ c ∈ calls, c.2 = .none) (hr : Reliable s kind)
    (hno : ∀ row ∈ tableRows s r kind, ¬ Matches s ((.network, .one (.str g)) :: calls) row) :
    Viewer.query a g calls = .error .keyError ∨ ∃ pt, Viewer.query a g calls = .ok pt ∧ pt.lines = [] ∧
      ∀ c ∈ calls, c.2 = .none → c.1.column ∈ pt.levels := by
  by_cases hcv : kind = .srcConv ∨ kind = .destConv → s.converters ≠ []
  · obtain ⟨pt, h1, h2⟩ := viewer_query hb hm ha hk hc hargs hnone hr hcv
    refine .inr ⟨pt, h1, ?_, ?_⟩
    · have := h2.lines
      rw [List.filter_eq_nil_iff.mpr (fun row hrow => by simpa using hno row hrow)] at this
      exact this.eq_nil
    · intro c hcm hcn
      obtain ⟨dr, kp, e1, e2, _, e4⟩ := h2.levels
      have hmem : c ∈ dr ++ kp := by rw [← e1]; exact List.mem_cons_of_mem _ hcm
      rcases List.mem_append.mp hmem with h | h
      · have := e2 _ h
        rw [hcn] at this
        cases this
      · rw [e4]
        exact List.mem_map.mpr ⟨_, h, rfl⟩
  · obtain ⟨hkk, h0⟩ : (kind = .srcConv ∨ kind = .destConv) ∧ s.converters = [] := by
      by_contra h
      exact hcv fun h1 h2 => h ⟨h1, h2⟩
    refine .inl ?_
    unfold Viewer.query
    rw [C40_converter_refuted hb hm ha hkk hc (.one _) (by
      intro c hcm
      rcases hargs c hcm with h | ⟨x, _, h⟩
      · rw [h]; exact .none
      · rw [h]; exact .one _) h0]
    rfl

/-- the questions of the charts of an element -/
theorem ask_missing {junk : Junk} {s : Study} {r : Result} {a : Analyzer} (hb : Built s)
    (hm : Mirrors s r) (ha : Analyzer.init junk s r = .ok a) {x : Viewer.Item}
    (hk : x.kind.isElement = true) {calls : List (IndexKind × IndexArg)}
    (hc : (calls.map Prod.fst).Perm [.time, .scn])
    (hargs : ∀ c ∈ calls, c.2 = .none ∨ ∃ i : ℤ, c.2 = .one (.num i))
    (hnone : ∃ c ∈ calls, c.2 = .none) (hr : Reliable s x.kind)
    (hno : ¬ InStudy s x.network x.node x.kind x.name ∨
      ∃ c ∈ calls, ∃ i : ℤ, c.2 = .one (.num i) ∧ (c.1 = .time ∧ ¬ Position s.horizon i ∨ c.1 = .scn ∧ ¬ Position s.nbScn i)) :
    x.ask a calls = .error .keyError ∨ ∃ pt, x.ask a calls = .ok pt ∧ pt.lines = [] ∧
      ∀ c ∈ calls, c.2 = .none → c.1.column ∈ pt.levels := by
  have := query_missing hb hm ha hk (g := x.network) (calls := (.node, .one (.str x.node)) ::
    (x.kind, .one (.str x.name)) :: calls) (by
      refine List.Perm.cons _ ?_
      exact (hc.cons x.kind).trans (List.perm_append_comm (l₁ := [x.kind]) (l₂ := [.time, .scn]))) (by
      intro c hc
      rcases List.mem_cons.mp hc with rfl | hc
      · exact .inr ⟨_, by simp, rfl⟩
      rcases List.mem_cons.mp hc with rfl | hc
      · exact .inr ⟨_, by simp, rfl⟩
      rcases hargs c hc with h | ⟨i, h⟩
      · exact .inl h
      · exact .inr ⟨_, by simp, h⟩) (by
      obtain ⟨c, hc, h0⟩ := hnone
      exact ⟨c, by simp [hc], h0⟩) hr (by
      intro row hrow hmatch
      obtain ⟨g, d, y, k, t, hin, hk, ht, e1, e2, e3, e4, e5⟩ := row_inStudy hb hrow
      rcases hno with hno | ⟨c, hcm, i, hci, hpos⟩
      · have m1 := hmatch (.network, .one (.str x.network)) (by simp)
        have m2 := hmatch (.node, .one (.str x.node)) (by simp)
        have m3 := hmatch (x.kind, .one (.str x.name)) (by simp)
        simp only [Selects, column_network, column_node, e1, e2, e3, Cell.str.injEq] at m1 m2 m3
        rw [m1, m2, m3] at hin
        exact hno hin
      · have m := hmatch c (by simp [hcm])
        rw [hci] at m
        rcases hpos with ⟨hc1, hpos⟩ | ⟨hc1, hpos⟩
        · simp only [Selects, hc1, column_time, e5, Cell.num.injEq] at m
          have : (t : ℤ) = i := by exact_mod_cast m
          exact hpos ⟨by omega, by omega⟩
        · simp only [Selects, hc1, column_scn, e4, Cell.num.injEq] at m
          have : (k : ℤ) = i := by exact_mod_cast m
          exact hpos ⟨by omega, by omega⟩)
  rcases this with h | ⟨pt, h1, h2, h3⟩
  · exact .inl h
  · exact .inr ⟨pt, h1, h2, fun c hc => h3 c (by simp [hc])⟩

theorem column_nil (c : String) : Viewer.column [] c = .error .keyError := rfl

theorem sortIndex_nil : Viewer.sortIndex [] = [] := rfl

theorem shown_nil {x : Viewer.Item} {pt : Pivot} (h : pt.lines = []) : x.shown pt = .error .keyError := by
  unfold Viewer.Item.shown
  rw [h, column_nil]
  split_ifs <;> rfl

end Hadar
