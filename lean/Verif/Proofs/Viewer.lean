import Mathlib.Algebra.Order.Field.Basic
import Mathlib.Data.List.Induction
import Verif.Spec.Viewer
import Verif.Props.Aggregates

/-! # Charts: from answers of the analyzer to the values drawn -/

namespace Hadar

open Spec

/-! ### Answers to the questions of the charts -/

open Classical in
/-- the questions asked by charts get an answer -/
theorem viewer_query {junk : Junk} {s : Study} {r : Result} {a : Analyzer} (hb : Built s)
    (hm : Mirrors s r) (ha : Analyzer.init junk s r = .ok a) {kind : IndexKind}
    (hk : kind.isElement = true) {g : String} {calls : List (IndexKind × IndexArg)}
    (hc : (calls.map Prod.fst).Perm [.node, .time, .scn, kind])
    (hargs : ∀ c ∈ calls, c.2 = .none ∨ ∃ x, x ≠ Cell.nan ∧ c.2 = .one x)
    (hnone : ∃ c ∈ calls, c.2 = .none) (hr : Reliable s kind)
    (hcv : kind = .srcConv ∨ kind = .destConv → s.converters ≠ []) :
    ∃ pt, Viewer.query a g calls = .ok pt ∧
      Answer s (tableRows s r kind) ((.network, .one (.str g)) :: calls) pt := by
  obtain ⟨pt, hpt⟩ := Props.C40_partial hb hm ha (g := .one (.str g)) (calls := calls) hk hc (.one _) (by
      intro c hc
      rcases hargs c hc with h | ⟨x, _, h⟩
      · rw [h]; exact .none
      · rw [h]; exact .one _) (by
      obtain ⟨c, hc, h⟩ := hnone
      exact ⟨c, List.mem_cons_of_mem _ hc, by rw [h]; exact .none⟩) hr hcv
  have honly : ∀ c ∈ calls, c.1.isElement = true → c.1 = kind := by
    intro c hcm he
    have : c.1 ∈ calls.map Prod.fst := List.mem_map_of_mem hcm
    rw [hc.mem_iff] at this
    simp only [List.mem_cons, List.not_mem_nil, or_false] at this
    rcases this with h | h | h | h
    · rw [h] at he; cases he
    · rw [h] at he; cases he
    · rw [h] at he; cases he
    · exact h
  obtain ⟨c, pt', hcm, hce, hpte, hans⟩ := Props.C37_partial hb hm ha hpt (by
      intro k x y z hmem
      rcases hargs _ hmem with h | ⟨_, _, h⟩ <;> cases h) (by
      intro c hcm he
      rw [honly c hcm he]; exact hr)
  cases hpte
  rw [honly c hcm hce] at hans
  refine ⟨pt, ?_, hans⟩
  unfold Viewer.query
  rw [hpt]
  rfl

/-- where the filters that give one value end -/
theorem prefix_unique {α : Type} {P : α → Prop} {l m l' m' : List α} (h : l ++ m = l' ++ m')
    (hl : ∀ x ∈ l, P x) (hm : ∀ x, m.head? = some x → ¬ P x) (hl' : ∀ x ∈ l', P x)
    (hm' : ∀ x, m'.head? = some x → ¬ P x) : m = m' := by
  induction l generalizing l' with
  | nil =>
    cases l' with
    | nil => exact h
    | cons x xs =>
      rw [List.nil_append] at h
      exact absurd (hl' x (by simp)) (hm x (by rw [h]; rfl))
  | cons y ys ih =>
    cases l' with
    | nil =>
      rw [List.nil_append] at h
      exact absurd (hl y (by simp)) (hm' y (by rw [← h]; rfl))
    | cons x xs =>
      simp only [List.cons_append, List.cons.injEq] at h
      exact ih h.2 (fun z hz => hl z (by simp [hz])) fun z hz => hl' z (by simp [hz])

/-- the levels of a chart question: those after the filters that give one value -/
theorem Spec.Answer.levels_after {s : Study} {rows : List Row} {ones rest : List (IndexKind × IndexArg)}
    {pt : Pivot} (h : Answer s rows (ones ++ rest) pt) (h1 : ∀ p ∈ ones, Single p.2)
    (h2 : ∀ p, rest.head? = some p → p.2 = .none) (hl : pt.lines ≠ []) :
    pt.levels = rest.map fun p => p.1.column := by
  obtain ⟨dr, kp, e1, e2, e3, e4⟩ := h.levels
  rw [e4, prefix_unique (P := fun p : IndexKind × IndexArg => Single p.2) e1 h1 ?_ e2 (e3 hl)]
  intro p hp hs
  rw [h2 p hp] at hs
  cases hs

/-- a table as a list of elements, each with one row per scenario and time -/
structure Listed {E : Type} (s : Study) (r : Result) (kind : IndexKind) (items : List E)
    (R : E → ℕ → ℕ → Row) (idf : E → String × String × String) : Prop where
  rows : tableRows s r kind = items.flatMap fun e => grid s (R e)
  key : ∀ e k t, identity kind (R e k t) = key5 (idf e) k t
  nodup : (items.map idf).Nodup

theorem Listed.at {E : Type} {s : Study} {r : Result} {kind : IndexKind} {items : List E}
    {R : E → ℕ → ℕ → Row} {idf : E → String × String × String} (h : Listed s r kind items R idf) (e : E)
    (k t : ℕ) : Row.at (R e k t) "network" = .str (idf e).1 ∧ Row.at (R e k t) "node" = .str (idf e).2.1 ∧
      Row.at (R e k t) kind.column = .str (idf e).2.2 ∧ Row.at (R e k t) "scn" = .num k ∧
      Row.at (R e k t) "t" = .num t := by
  have := h.key e k t
  simpa [identity, key5] using this

/-- the columns of a row that are not part of the key -/
def strip (kind : IndexKind) (row : Row) : Row := alphabetical (row.filter fun q => decide (q.1 ∉ keyColumns kind))

theorem strip_value {kind : IndexKind} {row : Row} {c : String} {q : ℚ} (hc : c ∉ keyColumns kind)
    (h : Row.at row c = .num q) (k : List Cell) : Viewer.Line.value (k, strip kind row) c = .ok q := by
  have : Dict.get? (strip kind row) c = Dict.get? row c := by
    unfold strip
    rw [get?_alphabetical]
    clear h
    induction row with
    | nil => rfl
    | cons p row ih =>
      rw [List.filter_cons]
      by_cases hp : p.1 = c
      · rw [if_pos (by simp [hp, hc])]
        simp [Dict.get?, hp]
      · by_cases hk : p.1 ∈ keyColumns kind
        · rw [if_neg (by simp [hk]), ih]
          simp [Dict.get?, hp]
        · rw [if_pos (by simp [hk])]
          simp only [Dict.get?, List.find?_cons, hp, decide_false] at ih ⊢
          simpa using ih
  unfold Viewer.Line.value
  simp only [this]
  unfold Row.at at h
  cases hd : Dict.get? row c with
  | none => rw [hd] at h; cases h
  | some v =>
    rw [hd] at h
    simp only [Option.getD_some] at h
    subst h; rfl

theorem Spec.Drawable.noNan {s : Study} {kind : IndexKind} (h : Drawable s kind) {r : Result} :
    ∀ row ∈ tableRows s r kind, ∀ p ∈ row, Row.at row p.1 ≠ .nan := tableRows_noNan h.bounds

theorem Spec.RatiosUsable.drawn {s : Study} (h : RatiosUsable s) : ∀ p ∈ s.converters, ∀ q ∈ p.2.srcRatios, ∀ k < s.nbScn,
    ∀ t < s.horizon, ¬ (fval p.2.max k t = 0 ∧ val q.2 k t = 0) :=
  fun p hp q hq k hk t ht hz => (h p hp q hq k hk t ht hz.2).1 hz.1

open Classical in
theorem Listed.answer {E : Type} {s : Study} {r : Result} {kind : IndexKind} {items : List E}
    {R : E → ℕ → ℕ → Row} {idf : E → String × String × String} (h : Listed s r kind items R idf)
    {filters : List (IndexKind × IndexArg)} {pt : Pivot} (hA : Answer s (tableRows s r kind) filters pt)
    (hd : Drawable s kind) {Pe : E → Bool} {Pp : ℕ × ℕ → Bool} {L : List (ℕ × ℕ)}
    (hM : ∀ e k t, Matches s filters (R e k t) ↔ Pe e = true ∧ Pp (k, t) = true)
    (hL : (pairs s.nbScn s.horizon).filter Pp = L)
    (hcols : ∀ c, c ∈ filters.map (fun f => f.1.column) ↔ c ∈ keyColumns kind) :
    pt.lines.Perm ((items.filter Pe).flatMap fun e => L.map fun p =>
      (pt.levels.map (Row.at (R e p.1 p.2)), strip kind (R e p.1 p.2))) := by
  refine (hA.full hd.noNan).trans (List.Perm.of_eq ?_)
  have hstrip : ∀ row : Row, alphabetical (row.filter fun q => decide (q.1 ∉ filters.map fun f => f.1.column)) =
      strip kind row := by
    intro row
    unfold strip
    congr 1
    refine List.filter_congr ?_
    intro q _
    rw [Bool.eq_iff_iff]
    simp only [decide_eq_true_eq, hcols]
  simp only [hstrip]
  rw [h.rows, List.filter_flatMap, List.map_flatMap]
  have : ∀ e, ((grid s (R e)).filter fun row => decide (Matches s filters row)) =
      if Pe e then L.map fun p => R e p.1 p.2 else [] := by
    intro e
    rw [grid_eq, List.filter_map]
    split_ifs with he
    · rw [← hL]
      congr 1
      refine List.filter_congr ?_
      intro p _
      rw [Bool.eq_iff_iff]
      simp [hM, he]
    · rw [List.map_eq_nil_iff, List.filter_eq_nil_iff]
      intro p _
      simp [hM, he]
  simp only [this]
  clear h hA this
  induction items with
  | nil => rfl
  | cons e es ih =>
    rw [List.flatMap_cons, List.filter_cons, ih]
    split_ifs <;> simp

theorem filter_one {E κ : Type} [DecidableEq κ] {items : List E} {idf : E → κ} (h : (items.map idf).Nodup)
    {e : E} (he : e ∈ items) : (items.filter fun x => decide (idf x = idf e)) = [e] := by
  induction items with
  | nil => cases he
  | cons y ys ih =>
    rw [List.map_cons, List.nodup_cons] at h
    rw [List.filter_cons]
    rcases List.mem_cons.mp he with rfl | he
    · rw [if_pos (by simp), List.filter_eq_nil_iff.mpr]
      intro x hx
      simp only [decide_eq_true_eq]
      intro hxe
      exact h.1 (hxe ▸ List.mem_map_of_mem hx)
    · rw [if_neg, ih h.2 he]
      simp only [decide_eq_true_eq]
      intro hxe
      exact h.1 (hxe ▸ List.mem_map_of_mem he)

/-- lines in order of keys that are all different -/
theorem lines_eq {lines L : List Viewer.Line} (hp : lines.Perm L)
    (hs : lines.Pairwise fun a b => Cell.keyLe a.1 b.1 = true)
    (hL : (L.map Prod.fst).Pairwise fun a b => Cell.keyLe a b = true) (hn : (L.map Prod.fst).Nodup) :
    lines = L := by
  refine List.Perm.eq_of_pairwise ?_ hs (List.pairwise_map.mp hL) hp
  intro a b ha hb h1 h2
  exact List.inj_on_of_nodup_map hn (hp.mem_iff.mp ha) hb (Cell.keyLe_antisymm h1 h2)

theorem filter_time {n h t : ℕ} (ht : t < h) :
    (pairs n h).filter (fun p => decide (p.2 = t)) = (List.range n).map fun k => (k, t) := by
  unfold pairs
  rw [List.filter_flatMap]
  have : ∀ k : ℕ, (((List.range h).map fun t => (k, t)).filter fun p => decide (p.2 = t)) = [(k, t)] := by
    intro k
    rw [List.filter_map]
    have := filter_one (idf := fun x : ℕ => x) (items := List.range h) (by simpa using List.nodup_range)
      (List.mem_range.mpr ht)
    simp only [Function.comp_def, this, List.map_cons, List.map_nil]
  simp only [this]
  induction List.range n with
  | nil => rfl
  | cons x xs ih => rw [List.flatMap_cons, ih]; rfl

theorem filter_scn {n h k : ℕ} (hk : k < n) :
    (pairs n h).filter (fun p => decide (p.1 = k)) = (List.range h).map fun t => (k, t) := by
  unfold pairs
  rw [List.filter_flatMap]
  have : ∀ x : ℕ, (((List.range h).map fun t => (x, t)).filter fun p => decide (p.1 = k)) =
      if x = k then (List.range h).map fun t => (k, t) else [] := by
    intro x
    rw [List.filter_map]
    split_ifs with hx
    · subst hx; simp [Function.comp_def]
    · rw [List.filter_eq_nil_iff.mpr]
      · rfl
      · intro t _; simp [hx]
  simp only [this]
  have h1 : ∀ l : List ℕ, l.Nodup → (l.flatMap fun x => if x = k then (List.range h).map fun t => (k, t) else []) =
      if k ∈ l then (List.range h).map fun t => (k, t) else [] := by
    intro l hl
    induction l with
    | nil => rfl
    | cons y ys ih =>
      rw [List.nodup_cons] at hl
      rw [List.flatMap_cons, ih hl.2]
      by_cases hy : y = k
      · subst hy; simp [hl.1]
      · have : k ≠ y := fun h => hy h.symm
        simp [hy, this]
  rw [h1 _ List.nodup_range, if_pos (List.mem_range.mpr hk)]

/-! ### The tables as lists of elements -/

theorem consumption_listed {s : Study} (hb : Built s) (r : Result) : Listed s r .cons (elements s (·.consumptions))
    (consumptionRow r) fun e => (e.1, e.2.1, e.2.2.2.name) :=
  ⟨rfl, fun _ _ _ => rfl, elements_nodup (Built.inv hb).names _ (fun c : Consumption => c.name)
    (Built.inv hb).names.consumptions⟩

theorem production_listed {s : Study} (hb : Built s) (r : Result) : Listed s r .prod (elements s (·.productions))
    (productionRow r) fun e => (e.1, e.2.1, e.2.2.2.name) :=
  ⟨rfl, fun _ _ _ => rfl, elements_nodup (Built.inv hb).names _ (fun c : Production => c.name)
    (Built.inv hb).names.productions⟩

theorem storage_listed {s : Study} (hb : Built s) (r : Result) : Listed s r .stor (elements s (·.storages))
    (storageRow r) fun e => (e.1, e.2.1, e.2.2.2.name) :=
  ⟨rfl, fun _ _ _ => rfl, elements_nodup (Built.inv hb).names _ (fun c : Storage => c.name)
    (Built.inv hb).names.storages⟩

theorem link_listed {s : Study} (hb : Built s) (r : Result) : Listed s r .link (elements s (·.links))
    (linkRow r) fun e => (e.1, e.2.1, e.2.2.2.dest) :=
  ⟨rfl, fun _ _ _ => rfl, elements_nodup (Built.inv hb).names _ (fun c : Link => c.dest)
    (Built.inv hb).names.links⟩

theorem dest_listed {s : Study} (hb : Built s) (r : Result) : Listed s r .destConv s.converters
    (destRow r) fun p => (p.2.destNetwork, p.2.destNode, p.1) := by
  refine ⟨rfl, fun _ _ _ => rfl, List.Nodup.of_map (fun x => x.2.2) ?_⟩
  rw [List.map_map]
  exact (Built.inv hb).names.converters

theorem source_listed {s : Study} (hb : Built s) (r : Result) : Listed s r .srcConv (sources s)
    (sourceRow r) fun e => (e.2.2.1, e.2.2.2.1, e.2.1) :=
  ⟨rfl, fun _ _ _ => rfl, sources_nodup (Built.inv hb)⟩

theorem mem_elements {α : Type} {s : Study} {sel : InputNode → List α} {g d : String} {n : InputNode} {i : ℕ}
    {c : α} (hn : HasNode s g d n) (hc : (sel n)[i]? = some c) : (g, d, i, c) ∈ elements s sel := by
  obtain ⟨net, hg, hd⟩ := hn
  simp only [elements, List.mem_flatMap, List.mem_map]
  exact ⟨(g, net), hg, (d, n), hd, (c, i), by rw [List.mem_zipIdx_iff_getElem?]; exact hc, rfl⟩

/-! ### Charts of one element -/

/-- an element, its row in the table for each scenario and time -/
structure ItemRows (s : Study) (r : Result) (kind : IndexKind) (g d name : String) (R : ℕ → ℕ → Row) : Prop where
  ex : ∃ (E : Type) (items : List E) (R' : E → ℕ → ℕ → Row) (idf : E → String × String × String) (e : E),
    Listed s r kind items R' idf ∧ e ∈ items ∧ idf e = (g, d, name) ∧ R' e = R
  element : kind.isElement = true
  convs : kind = .srcConv ∨ kind = .destConv → s.converters ≠ []

/-- values of the item in one column -/
structure ItemShows (s : Study) (r : Result) (kind : IndexKind) (g d name col : String) (f : ℕ → ℕ → ℚ)
    (R : ℕ → ℕ → Row) : Prop where
  rows : ItemRows s r kind g d name R
  value : ∀ k t, Row.at (R k t) col = .num (f k t)
  col : col ∉ keyColumns kind

theorem Spec.Shows.item {s : Study} {r : Result} {x : Viewer.Item} {f : ℕ → ℕ → ℚ} (hb : Built s)
    (h : Shows s r x f) : ∃ R, ItemShows s r x.kind x.network x.node x.name x.col f R ∧ x.kind ≠ .stor := by
  cases h with
  | given hn hc =>
    exact ⟨_, ⟨⟨⟨_, _, _, _, _, consumption_listed hb r, mem_elements hn hc, rfl, rfl⟩, rfl, by simp⟩,
      fun _ _ => rfl, by simp [keyColumns, IndexKind.column]⟩, by simp⟩
  | asked hn hc =>
    exact ⟨_, ⟨⟨⟨_, _, _, _, _, consumption_listed hb r, mem_elements hn hc, rfl, rfl⟩, rfl, by simp⟩,
      fun _ _ => rfl, by simp [keyColumns, IndexKind.column]⟩, by simp⟩
  | used hn hc =>
    exact ⟨_, ⟨⟨⟨_, _, _, _, _, production_listed hb r, mem_elements hn hc, rfl, rfl⟩, rfl, by simp⟩,
      fun _ _ => rfl, by simp [keyColumns, IndexKind.column]⟩, by simp⟩
  | avail hn hc =>
    exact ⟨_, ⟨⟨⟨_, _, _, _, _, production_listed hb r, mem_elements hn hc, rfl, rfl⟩, rfl, by simp⟩,
      fun _ _ => rfl, by simp [keyColumns, IndexKind.column]⟩, by simp⟩
  | usedLink hn hc =>
    exact ⟨_, ⟨⟨⟨_, _, _, _, _, link_listed hb r, mem_elements hn hc, rfl, rfl⟩, rfl, by simp⟩,
      fun _ _ => rfl, by simp [keyColumns, IndexKind.column]⟩, by simp⟩
  | availLink hn hc =>
    exact ⟨_, ⟨⟨⟨_, _, _, _, _, link_listed hb r, mem_elements hn hc, rfl, rfl⟩, rfl, by simp⟩,
      fun _ _ => rfl, by simp [keyColumns, IndexKind.column]⟩, by simp⟩
  | arrival hp =>
    refine ⟨_, ⟨⟨⟨_, _, _, _, _, dest_listed hb r, hp, rfl, rfl⟩, rfl, fun _ h => ?_⟩,
      fun _ _ => rfl, by simp [keyColumns, IndexKind.column]⟩, by simp⟩
    rw [h] at hp; cases hp
  | @departure p g d q hp hq =>
    refine ⟨_, ⟨⟨⟨_, _, _, _, (p.2, p.1, g, d, q), source_listed hb r, ?_, rfl, rfl⟩, rfl, fun _ h => ?_⟩,
      fun _ _ => rfl, by simp [keyColumns, IndexKind.column]⟩, by simp⟩
    · simp only [sources, List.mem_flatMap, List.mem_map]
      exact ⟨p, hp, _, hq, rfl⟩
    · rw [h] at hp; cases hp

theorem element_column {kind : IndexKind} (hk : kind.isElement = true) :
    kind.column = "name" ∨ kind.column = "dest" := by
  cases kind <;> simp_all [IndexKind.isElement, IndexKind.column]

theorem matches_nil {s : Study} {row : Row} : Matches s [] row ↔ True := by simp [Matches]

theorem matches_cons {s : Study} {p : IndexKind × IndexArg} {ps : List (IndexKind × IndexArg)} {row : Row} :
    Matches s (p :: ps) row ↔ Selects (extent s p.1) p.2 (Row.at row p.1.column) ∧ Matches s ps row := by
  simp [Matches]

theorem selects_one {n : ℕ} {x c : Cell} : Selects n (.one x) c ↔ c = x := Iff.rfl

theorem selects_none {n : ℕ} {c : Cell} : Selects n .none c ↔ True := Iff.rfl

theorem column_network : IndexKind.network.column = "network" := rfl
theorem column_node : IndexKind.node.column = "node" := rfl
theorem column_time : IndexKind.time.column = "t" := rfl
theorem column_scn : IndexKind.scn.column = "scn" := rfl

theorem single_keys_sorted (n : ℕ) :
    ((List.range n).map fun k : ℕ => [Cell.num k]).Pairwise fun a b => Cell.keyLe a b = true := by
  rw [List.pairwise_map]
  refine (List.pairwise_map.mp (sorted_nums n)).imp ?_
  intro x y hxy
  simp only [Cell.keyLe]
  split_ifs <;> simp_all

theorem single_keys_nodup (n : ℕ) : ((List.range n).map fun k : ℕ => [Cell.num k]).Nodup := by
  refine List.nodup_range.map ?_
  intro x y hxy
  simpa using hxy

open Classical in
/-- the rows asked by a chart of one element -/
theorem ItemRows.ask {junk : Junk} {s : Study} {r : Result} {a : Analyzer} (hb : Built s)
    (hm : Mirrors s r) (ha : Analyzer.init junk s r = .ok a) {kind : IndexKind} {g d name : String}
    {R : ℕ → ℕ → Row} (h : ItemRows s r kind g d name R) (hr : Drawable s kind) (col : String)
    {calls : List (IndexKind × IndexArg)} (hc : (calls.map Prod.fst).Perm [.time, .scn])
    (hargs : ∀ c ∈ calls, c.2 = .none ∨ ∃ x, x ≠ Cell.nan ∧ c.2 = .one x)
    (hnone : ∃ c ∈ calls, c.2 = .none) {Pp : ℕ × ℕ → Bool}
    (hP : ∀ (row : Row) (k t : ℕ), Row.at row "scn" = .num k → Row.at row "t" = .num t →
      (Matches s calls row ↔ Pp (k, t) = true)) :
    ∃ pt, Viewer.Item.ask a ⟨g, d, kind, name, col⟩ calls = .ok pt ∧
      Answer s (tableRows s r kind) ([(.network, .one (.str g)), (.node, .one (.str d)),
        (kind, .one (.str name))] ++ calls) pt ∧
      pt.lines.Perm (((pairs s.nbScn s.horizon).filter Pp).map fun p =>
        (pt.levels.map (Row.at (R p.1 p.2)), strip kind (R p.1 p.2))) ∧
      ∀ k t, Row.at (R k t) "scn" = .num k ∧ Row.at (R k t) "t" = .num t := by
  obtain ⟨E, items, R', idf, e, hL, he, hid, rfl⟩ := h.ex
  obtain ⟨pt, hpt, hA⟩ := viewer_query hb hm ha h.element (g := g) (calls := (.node, .one (.str d)) ::
    (kind, .one (.str name)) :: calls) (by
      refine List.Perm.cons _ ?_
      exact (hc.cons kind).trans (List.perm_append_comm (l₁ := [kind]) (l₂ := [.time, .scn]))) (by
      intro c hc
      rcases List.mem_cons.mp hc with rfl | hc
      · exact .inr ⟨_, by simp, rfl⟩
      rcases List.mem_cons.mp hc with rfl | hc
      · exact .inr ⟨_, by simp, rfl⟩
      exact hargs c hc) (by
      obtain ⟨c, hc, h0⟩ := hnone
      exact ⟨c, by simp [hc], h0⟩) hr.toReliable h.convs
  refine ⟨pt, hpt, hA, ?_, fun k t => (hL.at e k t).2.2.2⟩
  have hp := hL.answer hA hr (Pe := fun x => decide (idf x = idf e)) (Pp := Pp) (by
    intro e' k t'
    obtain ⟨h1, h2, h3, h4, h5⟩ := hL.at e' k t'
    simp only [matches_cons, selects_one, column_network, column_node, hP _ k t' h4 h5,
      h1, h2, h3, hid, decide_eq_true_eq, Cell.str.injEq, Prod.ext_iff, and_assoc]) rfl (by
    intro c
    have hcol : c ∈ calls.map (fun f => f.1.column) ↔ c = "t" ∨ c = "scn" := by
      have := (hc.map IndexKind.column).mem_iff (a := c)
      rw [List.map_map] at this
      simpa [IndexKind.column] using this
    simp only [List.map_cons, keyColumns, column_network, column_node, List.mem_cons, List.not_mem_nil,
      or_false, hcol]
    tauto)
  rw [filter_one hL.nodup he] at hp
  simpa using hp

/-- ... at a time: one line per scenario -/
theorem ItemRows.time {junk : Junk} {s : Study} {r : Result} {a : Analyzer} (hb : Built s)
    (hm : Mirrors s r) (ha : Analyzer.init junk s r = .ok a) {kind : IndexKind} {g d name : String}
    {R : ℕ → ℕ → Row} (h : ItemRows s r kind g d name R) (hr : Drawable s kind) {t : ℕ} (ht : t < s.horizon)
    (col : String) :
    ∃ pt, Viewer.Item.ask a ⟨g, d, kind, name, col⟩ [(.time, .one (.num ((t : ℤ) : ℚ))), (.scn, .none)] =
      .ok pt ∧ pt.lines = (List.range s.nbScn).map fun k : ℕ => ([Cell.num k], strip kind (R k t)) := by
  obtain ⟨pt, hpt, hA, hp, hat⟩ := h.ask hb hm ha hr col (calls := [(.time, .one (.num ((t : ℤ) : ℚ))),
    (.scn, .none)]) (List.Perm.refl _) (by simp) (by simp) (Pp := fun p => decide (p.2 = t)) (by
      intro row k t' h1 h2
      simp [matches_cons, matches_nil, selects_one, selects_none, column_time, column_scn, h2])
  refine ⟨pt, hpt, ?_⟩
  rw [filter_time ht, List.map_map] at hp
  by_cases hl : pt.lines = []
  · rw [hl] at hp ⊢
    have := hp.symm.eq_nil
    rw [List.map_eq_nil_iff] at this
    rw [this]; rfl
  · have hlev := hA.levels_after (ones := [(.network, .one (.str g)), (.node, .one (.str d)),
      (kind, .one (.str name)), (.time, .one (.num ((t : ℤ) : ℚ)))]) (rest := [(.scn, .none)])
      (by simp only [List.mem_cons, List.not_mem_nil, or_false, forall_eq_or_imp, forall_eq]
          exact ⟨.one _, .one _, .one _, .one _⟩) (by simp) hl
    rw [hlev] at hp
    simp only [Function.comp_def, List.map_cons, List.map_nil, IndexKind.column, (hat _ _).1] at hp
    refine lines_eq hp hA.sorted ?_ ?_
    · rw [List.map_map]
      exact single_keys_sorted _
    · rw [List.map_map]
      exact single_keys_nodup _

/-- ... for a scenario: one line per time -/
theorem ItemRows.scn {junk : Junk} {s : Study} {r : Result} {a : Analyzer} (hb : Built s)
    (hm : Mirrors s r) (ha : Analyzer.init junk s r = .ok a) {kind : IndexKind} {g d name : String}
    {R : ℕ → ℕ → Row} (h : ItemRows s r kind g d name R) (hr : Drawable s kind) {k : ℕ} (hk : k < s.nbScn)
    (col : String) :
    ∃ pt, Viewer.Item.ask a ⟨g, d, kind, name, col⟩ [(.scn, .one (.num ((k : ℤ) : ℚ))), (.time, .none)] =
      .ok pt ∧ pt.lines = (List.range s.horizon).map fun t : ℕ => ([Cell.num t], strip kind (R k t)) := by
  obtain ⟨pt, hpt, hA, hp, hat⟩ := h.ask hb hm ha hr col (calls := [(.scn, .one (.num ((k : ℤ) : ℚ))),
    (.time, .none)]) (List.Perm.swap _ _ _) (by simp) (by simp) (Pp := fun p => decide (p.1 = k)) (by
      intro row k' t' h1 h2
      simp [matches_cons, matches_nil, selects_one, selects_none, column_time, column_scn, h1])
  refine ⟨pt, hpt, ?_⟩
  rw [filter_scn hk, List.map_map] at hp
  by_cases hl : pt.lines = []
  · rw [hl] at hp ⊢
    have := hp.symm.eq_nil
    rw [List.map_eq_nil_iff] at this
    rw [this]; rfl
  · have hlev := hA.levels_after (ones := [(.network, .one (.str g)), (.node, .one (.str d)),
      (kind, .one (.str name)), (.scn, .one (.num ((k : ℤ) : ℚ)))]) (rest := [(.time, .none)])
      (by simp only [List.mem_cons, List.not_mem_nil, or_false, forall_eq_or_imp, forall_eq]
          exact ⟨.one _, .one _, .one _, .one _⟩) (by simp) hl
    rw [hlev] at hp
    simp only [Function.comp_def, List.map_cons, List.map_nil, IndexKind.column, (hat _ _).2] at hp
    refine lines_eq hp hA.sorted ?_ ?_
    · rw [List.map_map]
      exact single_keys_sorted _
    · rw [List.map_map]
      exact single_keys_nodup _

/-- ... for all scenarios and times -/
theorem ItemRows.all {junk : Junk} {s : Study} {r : Result} {a : Analyzer} (hb : Built s)
    (hm : Mirrors s r) (ha : Analyzer.init junk s r = .ok a) {kind : IndexKind} {g d name : String}
    {R : ℕ → ℕ → Row} (h : ItemRows s r kind g d name R) (hr : Drawable s kind) (col : String) :
    ∃ pt, Viewer.Item.ask a ⟨g, d, kind, name, col⟩ [(.scn, .none), (.time, .none)] = .ok pt ∧
      (0 < s.nbScn → 0 < s.horizon → pt.levels = ["scn", "t"]) ∧
      pt.lines = (pairs s.nbScn s.horizon).map fun p => (skey p, strip kind (R p.1 p.2)) := by
  obtain ⟨pt, hpt, hA, hp, hat⟩ := h.ask hb hm ha hr col (calls := [(.scn, .none), (.time, .none)])
    (List.Perm.swap _ _ _) (by simp) (by simp) (Pp := fun p => true) (by
      intro row k' t' h1 h2
      simp [matches_cons, matches_nil, selects_none])
  rw [List.filter_eq_self.mpr (fun _ _ => rfl)] at hp
  by_cases hl : pt.lines = []
  · refine ⟨pt, hpt, ?_⟩
    rw [hl] at hp ⊢
    have := hp.symm.eq_nil
    rw [List.map_eq_nil_iff] at this
    rw [this]
    refine ⟨fun h1 h2 => ?_, rfl⟩
    have h3 : ((0 : ℕ), (0 : ℕ)) ∈ pairs s.nbScn s.horizon := mem_pairs.mpr ⟨h1, h2⟩
    rw [this] at h3; cases h3
  · have hlev := hA.levels_after (ones := [(.network, .one (.str g)), (.node, .one (.str d)),
      (kind, .one (.str name))]) (rest := [(.scn, .none), (.time, .none)])
      (by simp only [List.mem_cons, List.not_mem_nil, or_false, forall_eq_or_imp, forall_eq]
          exact ⟨.one _, .one _, .one _⟩) (by simp) hl
    refine ⟨pt, hpt, fun _ _ => hlev, ?_⟩
    rw [hlev] at hp
    simp only [List.map_cons, List.map_nil, IndexKind.column, (hat _ _).1, (hat _ _).2] at hp
    refine lines_eq hp hA.sorted ?_ ?_
    · rw [List.map_map]
      exact pairs_sorted _ _
    · rw [List.map_map]
      exact (pairs_nodup _ _).map fun p q => skey_inj

/-! ### From lines to values -/

theorem column_ok {α : Type} {l : List α} {line : α → Viewer.Line} {f : α → ℚ} {col : String}
    (h0 : l ≠ []) (h : ∀ x ∈ l, Viewer.Line.value (line x) col = .ok (f x)) :
    Viewer.column (l.map line) col = .ok (l.map f) := by
  unfold Viewer.column
  rw [if_neg (by simpa using h0)]
  clear h0
  induction l with
  | nil => rfl
  | cons x xs ih =>
    rw [List.map_cons, List.mapM_cons, h x (by simp), ih fun y hy => h y (by simp [hy])]
    rfl

theorem rowAt_holds {s : Study} {a : NdArray} {f : ℕ → ℕ → ℚ} (h : Holds s a f) {k : ℕ} (hk : k < s.nbScn) :
    Viewer.rowAt a (k : ℤ) = .ok ((List.range s.horizon).map fun t => f k t) := by
  obtain ⟨hF, hc⟩ := h
  unfold Viewer.rowAt
  rw [hF.1]
  simp only [NdArray.axisIndex_nat, if_pos hk, bind, Except.bind, pure, Except.pure, Except.ok.injEq]
  refine List.ext_getElem? ?_
  intro t
  rw [List.getElem?_take, List.getElem?_drop, List.getElem?_map]
  by_cases ht : t < s.horizon
  · rw [if_pos ht, cell_full hF hk ht, hc k hk t ht, List.getElem?_range ht]; rfl
  · rw [if_neg ht, List.getElem?_eq_none (by simpa using ht)]; rfl

theorem columnAt_holds {s : Study} {a : NdArray} {f : ℕ → ℕ → ℚ} (h : Holds s a f) {t : ℕ}
    (ht : t < s.horizon) :
    Viewer.columnAt a (t : ℤ) = .ok ((List.range s.nbScn).map fun k => f k t) := by
  obtain ⟨hF, hc⟩ := h
  unfold Viewer.columnAt
  rw [hF.1]
  simp only [NdArray.axisIndex_nat, if_pos ht, bind, Except.bind, pure, Except.pure, Except.ok.injEq]
  refine List.map_congr_left ?_
  intro k hk
  rw [List.getD_eq_getElem?_getD, cell_full hF (List.mem_range.mp hk) ht, hc k (List.mem_range.mp hk) t ht]
  rfl

/-! ### Monotone -/

theorem monotone_of (y : List ℚ) : MonotoneOf y (Viewer.monotoneChart y) := by
  have hlen : ((y.insertionSort (· ≤ ·)).reverse).length = y.length := by simp
  have hsnd : (Viewer.monotoneChart y).map Prod.snd = (y.insertionSort (· ≤ ·)).reverse := by
    unfold Viewer.monotoneChart
    rw [List.map_snd_zip]
    simp
  refine ⟨?_, ?_, ?_⟩
  · rw [hsnd]
    exact (List.reverse_perm _).trans (List.perm_insertionSort _ _)
  · rw [hsnd, List.pairwise_reverse]
    exact List.pairwise_insertionSort _ _
  · intro i p hp
    unfold Viewer.monotoneChart at hp
    simp only [List.getElem?_zip_eq_some] at hp
    obtain ⟨h1, h2⟩ := hp
    rw [List.getElem?_map] at h1
    obtain ⟨j, hj, he⟩ := Option.map_eq_some_iff.mp h1
    rw [List.getElem?_eq_some_iff] at hj
    obtain ⟨hj1, hj2⟩ := hj
    rw [List.getElem_range] at hj2
    subst hj2
    rw [hlen] at he
    simp only [List.length_range, hlen] at hj1
    rw [← he]
    split_ifs with h0
    · have : i = 0 := by omega
      subst this; simp
    · ring

/-! ### Gaussian -/

theorem gaussian_of {ι : Type} {l : List ι} (hl : l ≠ []) (value margin : ι → ℚ) :
    ∃ c, Viewer.gaussianChart (l.map margin) (l.map value) = .ok c ∧ GaussianOf l value margin c := by
  unfold Viewer.gaussianChart
  rw [if_neg (by simpa using hl), if_pos (by simp)]
  refine ⟨_, rfl, ?_⟩
  rw [List.zip_map']
  constructor
  · simp only [List.filter_map, List.map_map]; rfl
  · simp only [List.filter_map, List.map_map]; rfl

/-! ### Timeline -/

theorem viewer_mem_unique {α : Type} [DecidableEq α] {l : List α} {x : α} : x ∈ Viewer.unique l ↔ x ∈ l := by
  simp [Viewer.unique]

theorem viewer_unique_nodup {α : Type} [DecidableEq α] (l : List α) : (Viewer.unique l).Nodup := by
  unfold Viewer.unique
  rw [List.nodup_reverse]
  exact List.nodup_dedup _

theorem viewer_unique_snoc {α : Type} [DecidableEq α] (l : List α) (x : α) :
    Viewer.unique (l ++ [x]) = if x ∈ l then Viewer.unique l else Viewer.unique l ++ [x] := by
  unfold Viewer.unique
  rw [List.reverse_append, List.reverse_singleton, List.singleton_append]
  split_ifs with h
  · rw [List.dedup_cons_of_mem (by simpa using h)]
  · rw [List.dedup_cons_of_notMem (by simpa using h), List.reverse_cons]

theorem viewer_unique_append {α : Type} [DecidableEq α] (l m : List α) :
    Viewer.unique (l ++ m) = Viewer.unique l ++ (Viewer.unique m).filter fun x => decide (x ∉ l) := by
  induction m using List.reverseRec with
  | nil => simp [Viewer.unique]
  | append_singleton m x ih =>
    rw [← List.append_assoc, viewer_unique_snoc, viewer_unique_snoc, ih]
    by_cases hm : x ∈ m
    · simp [hm]
    · by_cases hl : x ∈ l
      · simp [hm, hl, List.filter_append]
      · simp [hm, hl, List.filter_append]

theorem viewer_unique_const {α : Type} [DecidableEq α] {l : List α} {c : α} (h0 : l ≠ []) (h : ∀ x ∈ l, x = c) :
    Viewer.unique l = [c] := by
  induction l using List.reverseRec with
  | nil => exact absurd rfl h0
  | append_singleton l x ih =>
    rw [viewer_unique_snoc]
    have hx := h x (by simp)
    subst hx
    by_cases hl : l = []
    · subst hl; rfl
    · rw [ih hl fun y hy => h y (by simp [hy]), if_pos]
      obtain ⟨y, hy⟩ := List.exists_mem_of_ne_nil l hl
      rw [← h y (by simp [hy])]; exact hy

theorem viewer_unique_flatMap {α E : Type} [DecidableEq α] {items : List E} {key : E → α} {B : E → List α}
    (h0 : ∀ e ∈ items, B e ≠ []) (hB : ∀ e ∈ items, ∀ x ∈ B e, x = key e) (hn : (items.map key).Nodup) :
    Viewer.unique (items.flatMap B) = items.map key := by
  induction items with
  | nil => rfl
  | cons e es ih =>
    rw [List.map_cons, List.nodup_cons] at hn
    rw [List.flatMap_cons, viewer_unique_append, viewer_unique_const (h0 e (by simp)) (hB e (by simp)),
      ih (fun y hy => h0 y (by simp [hy])) (fun y hy => hB y (by simp [hy])) hn.2, List.filter_eq_self.mpr]
    · rfl
    · intro x hx
      simp only [decide_eq_true_eq]
      intro hxe
      rw [hB e (by simp) x hxe] at hx
      exact hn.1 hx

theorem viewer_unique_scns {n h : ℕ} (hh : 0 < h) :
    Viewer.unique ((pairs n h).map fun p => Cell.num (p.1 : ℚ)) = (List.range n).map fun k : ℕ => Cell.num k := by
  unfold pairs
  rw [List.map_flatMap]
  refine viewer_unique_flatMap ?_ ?_ (List.nodup_range.map Cell.num_inj)
  · intro e _ h0
    simp only [List.map_eq_nil_iff, List.range_eq_nil] at h0
    omega
  · intro e _ x hx
    simp only [List.map_map, List.mem_map, Function.comp_def] at hx
    obtain ⟨t, _, rfl⟩ := hx
    rfl

theorem loc_pairs {n h k : ℕ} (hk : k < n) (v : ℕ × ℕ → Dict String Cell) :
    Viewer.loc ((pairs n h).map fun p => (skey p, v p)) (.num k) =
      (List.range h).map fun t : ℕ => ([Cell.num t], v (k, t)) := by
  unfold Viewer.loc
  rw [List.filter_map, List.map_map]
  have : ((fun l : Viewer.Line => decide (l.1.head? = some (Cell.num (k : ℚ)))) ∘
      fun p : ℕ × ℕ => (skey p, v p)) = fun p => decide (p.1 = k) := by
    funext p
    simp [skey]
  rw [this, filter_scn hk, List.map_map]
  rfl

theorem ItemShows.timeline {junk : Junk} {s : Study} {r : Result} {a : Analyzer} (hb : Built s)
    (hm : Mirrors s r) (ha : Analyzer.init junk s r = .ok a) {kind : IndexKind} {g d name col : String}
    {f : ℕ → ℕ → ℚ} {R : ℕ → ℕ → Row} (h : ItemShows s r kind g d name col f R) (hr : Drawable s kind)
    (hn : 0 < s.nbScn) (hh : 0 < s.horizon) :
    Viewer.Item.timeline a ⟨g, d, kind, name, col⟩ =
      .ok ((List.range s.nbScn).map fun k : ℕ => (Cell.num k, over s (f k))) := by
  obtain ⟨pt, hpt, hlev, hl⟩ := h.rows.all hb hm ha hr col
  unfold Viewer.Item.timeline
  rw [hpt]
  show Viewer.timelineChart pt col = _
  unfold Viewer.timelineChart Viewer.levelValues Analyzer.level
  rw [hlev hn hh, if_pos (by simp), hl]
  have h1 : ((fun l : Viewer.Line => l.1.getD (["scn", "t"].idxOf "scn") .nan) ∘
      fun p : ℕ × ℕ => (skey p, strip kind (R p.1 p.2))) = fun p => Cell.num (p.1 : ℚ) := by
    funext p; rfl
  simp only [bind, Except.bind, pure, Except.pure, List.map_map]
  rw [h1, viewer_unique_scns hh, if_neg (by simp; omega), List.mapM_map]
  refine mapM_ok ?_
  intro k hk
  rw [Function.comp_apply, loc_pairs (List.mem_range.mp hk),
    column_ok (f := fun t => f k t) (by simpa using hh.ne') fun t _ => strip_value h.col (h.value k t) _]
  rfl

theorem Spec.Shows.absent {s : Study} {r : Result} {x : Viewer.Item} {f : ℕ → ℕ → ℚ} (hb : Built s)
    (h : Shows s r x f) {col : String} (hc : col ∉ numberColumns x.kind) :
    ∃ R, ItemRows s r x.kind x.network x.node x.name R ∧
      ∀ k t key, Viewer.Line.value (key, strip x.kind (R k t)) col = .error .keyError := by
  have hv : ∀ {key : List Cell} {v : Dict String Cell}, Dict.get? v col = none →
      Viewer.Line.value (key, v) col = .error .keyError := by
    intro key v h
    unfold Viewer.Line.value
    simp only [h]
  cases h with
  | given hn hc' =>
    refine ⟨_, ⟨⟨_, _, _, _, _, consumption_listed hb r, mem_elements hn hc', rfl, rfl⟩, rfl, by simp⟩, fun k t key => hv ?_⟩
    simp only [numberColumns, List.mem_cons, List.not_mem_nil, or_false, not_or] at hc
    rw [strip, get?_alphabetical]
    simp [consumptionRow, keyColumns, IndexKind.column, Dict.get?, eq_comm, hc]
  | asked hn hc' =>
    refine ⟨_, ⟨⟨_, _, _, _, _, consumption_listed hb r, mem_elements hn hc', rfl, rfl⟩, rfl, by simp⟩, fun k t key => hv ?_⟩
    simp only [numberColumns, List.mem_cons, List.not_mem_nil, or_false, not_or] at hc
    rw [strip, get?_alphabetical]
    simp [consumptionRow, keyColumns, IndexKind.column, Dict.get?, eq_comm, hc]
  | used hn hc' =>
    refine ⟨_, ⟨⟨_, _, _, _, _, production_listed hb r, mem_elements hn hc', rfl, rfl⟩, rfl, by simp⟩, fun k t key => hv ?_⟩
    simp only [numberColumns, List.mem_cons, List.not_mem_nil, or_false, not_or] at hc
    rw [strip, get?_alphabetical]
    simp [productionRow, keyColumns, IndexKind.column, Dict.get?, eq_comm, hc]
  | avail hn hc' =>
    refine ⟨_, ⟨⟨_, _, _, _, _, production_listed hb r, mem_elements hn hc', rfl, rfl⟩, rfl, by simp⟩, fun k t key => hv ?_⟩
    simp only [numberColumns, List.mem_cons, List.not_mem_nil, or_false, not_or] at hc
    rw [strip, get?_alphabetical]
    simp [productionRow, keyColumns, IndexKind.column, Dict.get?, eq_comm, hc]
  | usedLink hn hc' =>
    refine ⟨_, ⟨⟨_, _, _, _, _, link_listed hb r, mem_elements hn hc', rfl, rfl⟩, rfl, by simp⟩, fun k t key => hv ?_⟩
    simp only [numberColumns, List.mem_cons, List.not_mem_nil, or_false, not_or] at hc
    rw [strip, get?_alphabetical]
    simp [linkRow, keyColumns, IndexKind.column, Dict.get?, eq_comm, hc]
  | availLink hn hc' =>
    refine ⟨_, ⟨⟨_, _, _, _, _, link_listed hb r, mem_elements hn hc', rfl, rfl⟩, rfl, by simp⟩, fun k t key => hv ?_⟩
    simp only [numberColumns, List.mem_cons, List.not_mem_nil, or_false, not_or] at hc
    rw [strip, get?_alphabetical]
    simp [linkRow, keyColumns, IndexKind.column, Dict.get?, eq_comm, hc]
  | arrival hp =>
    refine ⟨_, ⟨⟨_, _, _, _, _, dest_listed hb r, hp, rfl, rfl⟩, rfl, fun _ h => ?_⟩, fun k t key => hv ?_⟩
    · rw [h] at hp; cases hp
    · simp only [numberColumns, List.mem_cons, List.not_mem_nil, or_false, not_or] at hc
      rw [strip, get?_alphabetical]
      simp [destRow, keyColumns, IndexKind.column, Dict.get?, eq_comm, hc]
  | @departure p g d q hp hq =>
    refine ⟨_, ⟨⟨_, _, _, _, (p.2, p.1, g, d, q), source_listed hb r, ?_, rfl, rfl⟩, rfl, fun _ h => ?_⟩, fun k t key => hv ?_⟩
    · simp only [sources, List.mem_flatMap, List.mem_map]
      exact ⟨p, hp, _, hq, rfl⟩
    · rw [h] at hp; cases hp
    · simp only [numberColumns, List.mem_cons, List.not_mem_nil, or_false, not_or] at hc
      rw [strip, get?_alphabetical]
      simp [sourceRow, keyColumns, IndexKind.column, Dict.get?, eq_comm, hc]

theorem timeline_absent {junk : Junk} {s : Study} {r : Result} {a : Analyzer} (hb : Built s)
    (hm : Mirrors s r) (ha : Analyzer.init junk s r = .ok a) {kind : IndexKind} {g d name col : String}
    {R : ℕ → ℕ → Row} (h : ItemRows s r kind g d name R) (hr : Drawable s kind)
    (hv : ∀ k t key, Viewer.Line.value (key, strip kind (R k t)) col = .error .keyError)
    (hn : 0 < s.nbScn) (hh : 0 < s.horizon) :
    Viewer.Item.timeline a ⟨g, d, kind, name, col⟩ = .error .keyError := by
  obtain ⟨pt, hpt, hlev, hl⟩ := h.all hb hm ha hr col
  unfold Viewer.Item.timeline
  rw [hpt]
  show Viewer.timelineChart pt col = _
  unfold Viewer.timelineChart Viewer.levelValues Analyzer.level
  rw [hlev hn hh, if_pos (by simp), hl]
  have h1 : ((fun l : Viewer.Line => l.1.getD (["scn", "t"].idxOf "scn") .nan) ∘
      fun p : ℕ × ℕ => (skey p, strip kind (R p.1 p.2))) = fun p => Cell.num (p.1 : ℚ) := by
    funext p; rfl
  simp only [bind, Except.bind, pure, Except.pure, List.map_map]
  rw [h1, viewer_unique_scns hh, if_neg (by simp; omega), List.mapM_map]
  obtain ⟨n, hn'⟩ : ∃ n, s.nbScn = n + 1 := ⟨s.nbScn - 1, by omega⟩
  obtain ⟨m, hm'⟩ : ∃ m, s.horizon = m + 1 := ⟨s.horizon - 1, by omega⟩
  have hl := loc_pairs (n := s.nbScn) (h := s.horizon) (k := 0) hn (fun p : ℕ × ℕ => strip kind (R p.1 p.2))
  rw [hn', List.range_succ_eq_map, List.mapM_cons]
  rw [← hn', Function.comp_apply, hl, Viewer.column, List.mapM_map, hm', List.range_succ_eq_map, List.mapM_cons]
  simp only [Function.comp_apply, hv, bind, Except.bind, ite_self]

/-! ### Storages -/

theorem sortIndex_sorted {lines : List Viewer.Line} (h : (lines.map Prod.fst).Pairwise fun a b => Cell.keyLe a b = true) :
    Viewer.sortIndex lines = lines := by
  unfold Viewer.sortIndex
  exact List.Pairwise.insertionSort_eq (List.pairwise_map.mp h)

theorem single_lines_sorted {n : ℕ} (v : ℕ → Dict String Cell) :
    (((List.range n).map fun k : ℕ => ([Cell.num k], v k)).map Prod.fst).Pairwise
      fun a b => Cell.keyLe a b = true := by
  rw [List.map_map]
  exact single_keys_sorted n

theorem storage_item {s : Study} {r : Result} (hb : Built s) {g d : String} {n : InputNode} {i : ℕ} {c : Storage}
    (hn : HasNode s g d n) (hc : n.storages[i]? = some c) :
    ItemRows s r .stor g d c.name (storageRow r (g, d, i, c)) :=
  ⟨⟨_, _, _, _, _, storage_listed hb r, mem_elements hn hc, rfl, rfl⟩, rfl, by simp⟩

/-- levels of a storage made by its flows -/
def levels (init : ℚ) (delta : ℕ → ℚ) : ℕ → ℚ
  | 0 => init
  | t + 1 => levels init delta t + delta t

theorem cumsum_levels (acc : ℚ) (delta : ℕ → ℚ) (h : ℕ) :
    Viewer.cumsum acc ((List.range h).map delta) =
      (List.range h).map fun t => levels acc delta (t + 1) := by
  have key : ∀ j acc', acc' = levels acc delta j → Viewer.cumsum acc' ((List.range h).map fun t => delta (j + t)) =
      (List.range h).map fun t => levels acc delta (j + t + 1) := by
    induction h with
    | zero => intro j acc' _; rfl
    | succ h ih =>
      intro j acc' hj
      rw [List.range_succ_eq_map, List.map_cons, List.map_map, Viewer.cumsum, List.map_cons, List.map_map]
      have h1 : acc' + delta (j + 0) = levels acc delta (j + 1) := by rw [hj]; rfl
      rw [h1]
      congr 1
      have := ih (j + 1) _ rfl
      have e1 : (fun t => delta (j + t)) ∘ Nat.succ = fun t => delta (j + 1 + t) := by
        funext t; simp only [Function.comp_apply, Nat.succ_eq_add_one]; congr 1; omega
      have e2 : (fun t => levels acc delta (j + t + 1)) ∘ Nat.succ = fun t => levels acc delta (j + 1 + t + 1) := by
        funext t; simp only [Function.comp_apply, Nat.succ_eq_add_one]; congr 1; omega
      rw [e1, e2]
      exact this
  have := key 0 acc rfl
  simpa using this

theorem zipWith_maps {α : Type} (l : List α) (f g : α → ℚ) (op : ℚ → ℚ → ℚ) :
    List.zipWith op (l.map f) (l.map g) = l.map fun x => op (f x) (g x) := by
  rw [List.zipWith_map, List.zipWith_self]

theorem candles_ok {junk : Junk} {s : Study} {r : Result} {a : Analyzer} (hb : Built s)
    (hm : Mirrors s r) (ha : Analyzer.init junk s r = .ok a) (h1s : storageCount s ≤ 1) {g d : String}
    {n : InputNode} {i : ℕ} {c : Storage} (hn : HasNode s g d n) (hc : n.storages[i]? = some c) {k : ℕ}
    (hk : k < s.nbScn) (hh : 0 < s.horizon) :
    ∃ delta : ℕ → ℚ, (∀ t, delta t = val c.eff k t * (dispatchOf s r k).fin g d i t -
        (dispatchOf s r k).fout g d i t) ∧
      Viewer.candles a g d c.name (k : ℤ) = .ok ((List.range s.horizon).map (levels c.initCapacity delta),
        (List.range s.horizon).map fun t => levels c.initCapacity delta (t + 1)) := by
  obtain ⟨pt, hpt, hl⟩ := (storage_item (r := r) hb hn hc).scn hb hm ha ⟨⟨fun _ => h1s, by simp⟩, by simp⟩ hk ""
  refine ⟨fun t => val c.eff k t * (dispatchOf s r k).fin g d i t - (dispatchOf s r k).fout g d i t,
    fun _ => rfl, ?_⟩
  unfold Viewer.candles
  have hpt' : Viewer.query a g [(.node, .one (.str d)), (.stor, .one (.str c.name)),
      (.scn, .one (.num ((k : ℤ) : ℚ))), (.time, .none)] = .ok pt := hpt
  rw [hpt']
  simp only [bind, Except.bind, pure, Except.pure]
  rw [hl, sortIndex_sorted (single_lines_sorted _)]
  obtain ⟨h', hh'⟩ : ∃ h', s.horizon = h' + 1 := ⟨s.horizon - 1, by omega⟩
  have hfind : (((List.range s.horizon).map fun t : ℕ => ([Cell.num t], strip .stor
      (storageRow r (g, d, i, c) k t))).find? fun l => decide (l.1 = [Cell.num 0])) =
      some ([Cell.num 0], strip .stor (storageRow r (g, d, i, c) k 0)) := by
    rw [hh', List.range_succ_eq_map, List.map_cons, List.find?_cons_of_pos]
    · simp
    · simp
  rw [hfind]
  have hnk : ∀ x ∈ ["init_capacity", "flow_in", "eff", "flow_out"], x ∉ keyColumns .stor := by decide
  have hv := strip_value (kind := .stor) (row := storageRow r (g, d, i, c) k 0) (c := "init_capacity")
    (hnk _ (by simp)) (q := c.initCapacity) rfl [Cell.num 0]
  have h2 := column_ok (l := List.range s.horizon) (line := fun t : ℕ => (([Cell.num t], strip .stor
      (storageRow r (g, d, i, c) k t)) : Viewer.Line)) (col := "flow_in")
      (f := fun t => (dispatchOf s r k).fin g d i t) (by simp; omega) fun t _ => strip_value (hnk _ (by simp)) rfl _
  have h3 := column_ok (l := List.range s.horizon) (line := fun t : ℕ => (([Cell.num t], strip .stor
      (storageRow r (g, d, i, c) k t)) : Viewer.Line)) (col := "eff")
      (f := fun t => val c.eff k t) (by simp; omega) fun t _ => strip_value (hnk _ (by simp)) rfl _
  have h4 := column_ok (l := List.range s.horizon) (line := fun t : ℕ => (([Cell.num t], strip .stor
      (storageRow r (g, d, i, c) k t)) : Viewer.Line)) (col := "flow_out")
      (f := fun t => (dispatchOf s r k).fout g d i t) (by simp; omega) fun t _ => strip_value (hnk _ (by simp)) rfl _
  simp only [hv, h2, h3, h4, zipWith_maps, Viewer.cumsum, zero_add]
  rw [cumsum_levels]
  simp only [List.tail_cons, Except.ok.injEq, Prod.mk.injEq]
  have hcomm : (fun t => (dispatchOf s r k).fin g d i t * val c.eff k t - (dispatchOf s r k).fout g d i t) =
      fun t => val c.eff k t * (dispatchOf s r k).fin g d i t - (dispatchOf s r k).fout g d i t := by
    funext t; rw [mul_comm]
  rw [hcomm]
  refine ⟨?_, rfl⟩
  have : (List.range (s.horizon + 1)).map (levels c.initCapacity fun t => val c.eff k t *
      (dispatchOf s r k).fin g d i t - (dispatchOf s r k).fout g d i t) = c.initCapacity ::
      (List.range s.horizon).map fun t => levels c.initCapacity (fun t => val c.eff k t *
      (dispatchOf s r k).fin g d i t - (dispatchOf s r k).fout g d i t) (t + 1) := by
    rw [List.range_succ_eq_map, List.map_cons, List.map_map]; rfl
  rw [← this, List.range_succ, List.map_append, List.map_cons, List.map_nil, List.dropLast_concat]

/-! ### Matrix -/

theorem grid_of_holds {s : Study} {a : NdArray} {f : ℕ → ℕ → ℚ} (h : Holds s a f) : a.data = grid s f := by
  obtain ⟨hF, hc⟩ := h
  rw [grid_eq]
  refine List.ext_getElem? ?_
  intro i
  by_cases hi : i < s.nbScn * s.horizon
  · have h0 : 0 < s.horizon := by
      rcases Nat.eq_zero_or_pos s.horizon with h | h
      · rw [h] at hi; simp at hi
      · exact h
    have h1 : i / s.horizon < s.nbScn := Nat.div_lt_of_lt_mul (by rwa [Nat.mul_comm])
    have h2 : i % s.horizon < s.horizon := Nat.mod_lt _ h0
    have h3 : i = i / s.horizon * s.horizon + i % s.horizon := (Nat.div_add_mod' i s.horizon).symm
    rw [h3, cell_full hF h1 h2, List.getElem?_map, get_pairs h1 h2, hc _ h1 _ h2]
    rfl
  · rw [List.getElem?_eq_none (by rw [hF.2]; omega), List.getElem?_eq_none (by
      rw [List.length_map, length_pairs]; omega)]

theorem foldl_max {l : List ℚ} {x : ℚ} : l.foldl max x ∈ x :: l ∧ ∀ y ∈ x :: l, y ≤ l.foldl max x := by
  induction l generalizing x with
  | nil => simp
  | cons z zs ih =>
    rw [List.foldl_cons]
    obtain ⟨h1, h2⟩ := ih (x := max x z)
    constructor
    · rcases List.mem_cons.mp h1 with h | h
      · rw [h]
        rcases max_choice x z with e | e <;> rw [e] <;> simp
      · simp [h]
    · intro y hy
      have h3 := h2 (max x z) (by simp)
      simp only [List.mem_cons] at hy
      rcases hy with rfl | rfl | hy
      · exact (le_max_left _ _).trans h3
      · exact (le_max_right _ _).trans h3
      · exact h2 y (by simp [hy])

theorem foldl_min {l : List ℚ} {x : ℚ} : l.foldl min x ∈ x :: l ∧ ∀ y ∈ x :: l, l.foldl min x ≤ y := by
  induction l generalizing x with
  | nil => simp
  | cons z zs ih =>
    rw [List.foldl_cons]
    obtain ⟨h1, h2⟩ := ih (x := min x z)
    constructor
    · rcases List.mem_cons.mp h1 with h | h
      · rw [h]
        rcases min_choice x z with e | e <;> rw [e] <;> simp
      · simp [h]
    · intro y hy
      have h3 := h2 (min x z) (by simp)
      simp only [List.mem_cons] at hy
      rcases hy with rfl | rfl | hy
      · exact h3.trans (min_le_left _ _)
      · exact h3.trans (min_le_right _ _)
      · exact h2 y (by simp [hy])

theorem pyMax_ok {l : List ℚ} (h : l ≠ []) : ∃ m, Viewer.pyMax l = .ok m ∧ m ∈ l ∧ ∀ y ∈ l, y ≤ m := by
  cases l with
  | nil => exact absurd rfl h
  | cons x xs => exact ⟨_, rfl, foldl_max.1, foldl_max.2⟩

theorem pyMin_ok {l : List ℚ} (h : l ≠ []) : ∃ m, Viewer.pyMin l = .ok m ∧ m ∈ l ∧ ∀ y ∈ l, m ≤ y := by
  cases l with
  | nil => exact absurd rfl h
  | cons x xs => exact ⟨_, rfl, foldl_min.1, foldl_min.2⟩

theorem sdt_ok {x : List ℚ} (hp : ∃ q ∈ x, 0 < q) (hn : ∃ q ∈ x, q < 0) :
    ∃ z, Viewer.sdt x = .ok z ∧ ColoursOf x z := by
  obtain ⟨M, hM, hMm, hMle⟩ := pyMax_ok (l := x.filter fun q => decide (0 < q)) (by
    obtain ⟨q, hq, h⟩ := hp
    exact List.ne_nil_of_mem (List.mem_filter.mpr ⟨hq, by simpa using h⟩))
  simp only [List.mem_filter, decide_eq_true_eq] at hMm hMle
  have hx1 : ((x.map fun q => if 0 < q then q / M else q).filter fun q => decide (q < 0)) =
      x.filter fun q => decide (q < 0) := by
    rw [List.filter_map]
    have : (x.filter ((fun q => decide (q < 0)) ∘ fun q => if 0 < q then q / M else q)) =
        x.filter fun q => decide (q < 0) := by
      refine List.filter_congr ?_
      intro q _
      rw [Bool.eq_iff_iff]
      simp only [Function.comp_apply, decide_eq_true_eq]
      split_ifs with h
      · have := div_pos h hMm.2
        constructor <;> intro h' <;> linarith
      · rfl
    rw [this]
    conv_rhs => rw [← List.map_id (x.filter fun q => decide (q < 0))]
    refine List.map_congr_left ?_
    intro q hq
    simp only [List.mem_filter, decide_eq_true_eq] at hq
    rw [if_neg (by linarith [hq.2])]; rfl
  obtain ⟨m, hm, hmm, hmle⟩ := pyMin_ok (l := x.filter fun q => decide (q < 0)) (by
    obtain ⟨q, hq, h⟩ := hn
    exact List.ne_nil_of_mem (List.mem_filter.mpr ⟨hq, by simpa using h⟩))
  simp only [List.mem_filter, decide_eq_true_eq] at hmm hmle
  let c : ℚ → ℚ := fun q => if 0 < q then q / M else if q < 0 then q / -m else q
  have hz : Viewer.sdt x = .ok (x.map c) := by
    unfold Viewer.sdt
    simp only [hM, hx1, hm, bind, Except.bind, pure, Except.pure, List.map_map, Except.ok.injEq]
    refine List.map_congr_left ?_
    intro q _
    simp only [Function.comp_apply, c]
    split_ifs with h1 h2 h3
    · have := div_pos h1 hMm.2
      linarith
    · rfl
    · rfl
    · rfl
  have hM0 := hMm.2
  have hm0 : 0 < -m := by linarith [hmm.2]
  have cpos : ∀ q, 0 < q → c q = q / M := fun q h => if_pos h
  have cneg : ∀ q, q < 0 → c q = q / -m := fun q h => by
    simp only [c]; rw [if_neg (by linarith), if_pos h]
  have czero : c 0 = 0 := by simp [c]
  have csign : ∀ q, (0 < q ↔ 0 < c q) ∧ (q < 0 ↔ c q < 0) := by
    intro q
    rcases lt_trichotomy q 0 with h | h | h
    · have := div_neg_of_neg_of_pos h hm0
      rw [cneg q h]
      constructor <;> constructor <;> intro h' <;> linarith
    · subst h; rw [czero]; simp
    · have := div_pos h hM0
      rw [cpos q h]
      constructor <;> constructor <;> intro h' <;> linarith
  have hget : ∀ (i : ℕ) (v d : ℚ), x[i]? = some v → (x.map c)[i]? = some d → v ∈ x ∧ d = c v := by
    intro i v d h1 h2
    rw [List.getElem?_map, h1] at h2
    exact ⟨List.mem_of_getElem? h1, (Option.some.inj h2).symm⟩
  refine ⟨x.map c, hz, by simp, ?_, ?_, ?_, ?_, ?_⟩
  · intro d hd
    obtain ⟨q, hq, rfl⟩ := List.mem_map.mp hd
    rcases lt_trichotomy q 0 with h | h | h
    · rw [cneg q h]
      have h1 := hmle q ⟨hq, h⟩
      have h2 := div_neg_of_neg_of_pos h hm0
      refine ⟨?_, by linarith⟩
      rw [le_div_iff₀ hm0]; linarith
    · subst h; rw [czero]; norm_num
    · rw [cpos q h]
      have h1 := hMle q ⟨hq, h⟩
      have h2 := div_pos h hM0
      refine ⟨by linarith, ?_⟩
      rw [div_le_one hM0]; exact h1
  · intro i v d h1 h2
    obtain ⟨_, rfl⟩ := hget i v d h1 h2
    exact csign v
  · intro i j v w d e h1 h2 h3 h4 hvw
    obtain ⟨hv, rfl⟩ := hget i v d h1 h2
    obtain ⟨hw, rfl⟩ := hget j w e h3 h4
    rcases lt_trichotomy v 0 with h | h | h
    · by_cases h' : w < 0
      · rw [cneg v h, cneg w h']
        exact div_lt_div_of_pos_right hvw hm0
      · have a1 := (csign v).2.mp h
        have a2 : ¬ c w < 0 := fun h0 => h' ((csign w).2.mpr h0)
        linarith [not_lt.mp a2]
    · subst h
      rw [czero]; exact (csign w).1.mp hvw
    · rw [cpos v h, cpos w (h.trans hvw)]
      exact div_lt_div_of_pos_right hvw hM0
  · intro i v d h1 h2 hv hall
    obtain ⟨hvx, rfl⟩ := hget i v d h1 h2
    rw [cpos v hv]
    have : v = M := le_antisymm (hMle v ⟨hvx, hv⟩) (hall M hMm.1)
    rw [this, div_self (ne_of_gt hM0)]
  · intro i v d h1 h2 hv hall
    obtain ⟨hvx, rfl⟩ := hget i v d h1 h2
    rw [cneg v hv]
    have : v = m := le_antisymm (hall m hmm.1) (hmle v ⟨hvx, hv⟩)
    rw [this, div_neg, div_self (by linarith)]

theorem sdt_refused {x : List ℚ} (h : (∀ q ∈ x, q ≤ 0) ∨ ∀ q ∈ x, 0 ≤ q) :
    Viewer.sdt x = .error .valueError := by
  by_cases hp : (x.filter fun q => decide (0 < q)) = []
  · unfold Viewer.sdt
    rw [hp]; rfl
  · have hpos : ∀ q ∈ x, 0 ≤ q := by
      rcases h with h | h
      · refine absurd (List.filter_eq_nil_iff.mpr ?_) hp
        intro q hq
        have := h q hq
        simpa using this
      · exact h
    obtain ⟨M, hM, hMm, _⟩ := pyMax_ok hp
    simp only [List.mem_filter, decide_eq_true_eq] at hMm
    unfold Viewer.sdt
    rw [hM]
    simp only [bind, Except.bind]
    rw [List.filter_eq_nil_iff.mpr]
    · rfl
    · intro q hq
      obtain ⟨v, hv, rfl⟩ := List.mem_map.mp hq
      have := hpos v hv
      simp only [decide_eq_true_eq, not_lt]
      split_ifs with h1
      · exact (div_pos h1 hMm.2).le
      · exact this

end Hadar
