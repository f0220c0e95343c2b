import Verif.Proofs.Viewer
import Verif.Props.LP

/-!
# Charts of one element (C59, C62, C63, C64, C67, C68)
-/

namespace Hadar.Props

open Spec

variable {junk : Junk} {s : Study} {r : Result} {a : Analyzer}

/-! ### C62, C64: monotone -/

/-- C62: a monotone chart draws exactly the values given, from highest to lowest, spread from 0 % to 100 % -/
theorem C62_drawn (y : List ℚ) : MonotoneOf y (Viewer.monotoneChart y) := monotone_of y

/-- C64: time and scenario together are refused, whatever the element -/
theorem C64_both (a : Analyzer) (x : Viewer.Item) (t k : ℤ) :
    x.monotone a (some t) (some k) = .error .valueError ∧
    x.gaussian a (some t) (some k) = .error .valueError ∧
    x.gaussianConverter a (some t) (some k) = .error .valueError := ⟨rfl, rfl, rfl⟩

/-- C64: with neither time nor scenario there is no chart: the error is not a `ValueError` -/
theorem C64_neither (a : Analyzer) (x : Viewer.Item) :
    x.monotone a none none = .error .nameError ∧ (∃ e, x.gaussian a none none = .error e) ∧
    ∃ e, x.gaussianConverter a none none = .error e := by
  refine ⟨rfl, ?_, ?_⟩
  · unfold Viewer.Item.gaussian Viewer.Item.gaussianWith
    simp only [Viewer.notBoth, bind, Except.bind]
    cases x.ask a [(.scn, Viewer.indexArg none), (.time, .none)] with
    | error e => exact ⟨e, rfl⟩
    | ok pt =>
      cases h1 : Viewer.column pt.lines x.col with
      | error e => exact ⟨e, by simp [h1]⟩
      | ok qt =>
        cases h2 : a.getRac x.network with
        | error e => exact ⟨e, by simp [h1]⟩
        | ok rac => exact ⟨.typeError, by simp [h1]⟩
  · unfold Viewer.Item.gaussianConverter Viewer.Item.gaussianConverterWith
    simp only [Viewer.notBoth, bind, Except.bind]
    cases x.ask a [(.time, Viewer.indexArg none), (.scn, .none)] with
    | error e => exact ⟨e, rfl⟩
    | ok pt =>
      cases h1 : Viewer.column pt.lines x.col with
      | error e => exact ⟨e, by simp [h1]⟩
      | ok qt =>
        cases h2 : a.getRac x.network with
        | error e => exact ⟨e, by simp [h1]⟩
        | ok rac => exact ⟨.typeError, by simp [h1]⟩

/-- C62, C64 (partial): with a time, the monotone chart of an element shows its values at this time, over
scenarios. Missing: intakes of converters when one has several sources (`C36_refuted`). -/
theorem C64_time_partial (hb : Built s) (hm : Mirrors s r) (ha : Analyzer.init junk s r = .ok a)
    {x : Viewer.Item} {f : ℕ → ℕ → ℚ} (hx : Shows s r x f) (hr : Drawable s x.kind)
    (hn : 0 < s.nbScn) {t : ℕ} (ht : t < s.horizon) :
    ∃ p, x.monotone a (some (t : ℤ)) none = .ok p ∧ MonotoneOf ((List.range s.nbScn).map fun k => f k t) p := by
  obtain ⟨R, hR, hk⟩ := hx.item hb
  obtain ⟨pt, hpt, hl⟩ := hR.rows.time hb hm ha hr ht x.col
  refine ⟨_, ?_, monotone_of _⟩
  unfold Viewer.Item.monotone
  simp only [Viewer.notBoth, bind, Except.bind, Option.isSome_none, Option.isSome_some, Bool.false_eq_true,
    and_false, if_false, hpt]
  unfold Viewer.Item.shown
  rw [if_neg hk, hl, column_ok (f := fun k => f k t) (by simp; omega) fun k _ => strip_value hR.col (hR.value k t) _]
  rfl

/-- C62, C64 (partial): with a scenario, the monotone chart of an element shows its values in this scenario,
over time. Missing: as above. -/
theorem C64_scn_partial (hb : Built s) (hm : Mirrors s r) (ha : Analyzer.init junk s r = .ok a)
    {x : Viewer.Item} {f : ℕ → ℕ → ℚ} (hx : Shows s r x f) (hr : Drawable s x.kind)
    (hh : 0 < s.horizon) {k : ℕ} (hkn : k < s.nbScn) :
    ∃ p, x.monotone a none (some (k : ℤ)) = .ok p ∧ MonotoneOf (over s (f k)) p := by
  obtain ⟨R, hR, hk⟩ := hx.item hb
  obtain ⟨pt, hpt, hl⟩ := hR.rows.scn hb hm ha hr hkn x.col
  refine ⟨_, ?_, monotone_of _⟩
  unfold Viewer.Item.monotone
  simp only [Viewer.notBoth, bind, Except.bind, Option.isSome_none, Option.isSome_some, Bool.false_eq_true,
    false_and, if_false, hpt]
  unfold Viewer.Item.shown
  rw [if_neg hk, hl, column_ok (f := fun t => f k t) (by simp; omega) fun t _ => strip_value hR.col (hR.value k t) _]
  rfl

/-! ### C67: gaussian -/

/-- what is drawn at a time, whatever the method `plotting.gaussian` -/
theorem gaussianWith_time {β : Type} (draw : List ℚ → List ℚ → Except PyErr β) (hb : Built s) (hm : Mirrors s r)
    (ha : Analyzer.init junk s r = .ok a) {x : Viewer.Item} {f : ℕ → ℕ → ℚ} (hx : Shows s r x f)
    (hr : Drawable s x.kind) {net : InputNetwork} (hg : (x.network, net) ∈ s.networks) (hn : 0 < s.nbScn)
    {t : ℕ} (ht : t < s.horizon) :
    x.gaussianWith draw a (some (t : ℤ)) none =
      draw ((List.range s.nbScn).map fun k => margin s r net x.network k t)
        ((List.range s.nbScn).map fun k => f k t) := by
  obtain ⟨R, hR, hk⟩ := hx.item hb
  obtain ⟨pt, hpt, hl⟩ := hR.rows.time hb hm ha hr ht x.col
  obtain ⟨rac, hrac, hh⟩ := C45 hb hm ha hg
  unfold Viewer.Item.gaussianWith
  simp only [Viewer.notBoth, bind, Except.bind, Option.isSome_none, Option.isSome_some, Bool.false_eq_true,
    and_false, if_false, hpt]
  rw [hl, column_ok (f := fun k => f k t) (by simp; omega) fun k _ => strip_value hR.col (hR.value k t) _]
  simp only [hrac, columnAt_holds hh ht]
  rfl

/-- what is drawn in a scenario, whatever the method `plotting.gaussian` -/
theorem gaussianWith_scn {β : Type} (draw : List ℚ → List ℚ → Except PyErr β) (hb : Built s) (hm : Mirrors s r)
    (ha : Analyzer.init junk s r = .ok a) {x : Viewer.Item} {f : ℕ → ℕ → ℚ} (hx : Shows s r x f)
    (hr : Drawable s x.kind) {net : InputNetwork} (hg : (x.network, net) ∈ s.networks) (hh0 : 0 < s.horizon)
    {k : ℕ} (hkn : k < s.nbScn) :
    x.gaussianWith draw a none (some (k : ℤ)) =
      draw ((List.range s.horizon).map fun t => margin s r net x.network k t)
        ((List.range s.horizon).map fun t => f k t) := by
  obtain ⟨R, hR, hk⟩ := hx.item hb
  obtain ⟨pt, hpt, hl⟩ := hR.rows.scn hb hm ha hr hkn x.col
  obtain ⟨rac, hrac, hh⟩ := C45 hb hm ha hg
  unfold Viewer.Item.gaussianWith Viewer.indexArg
  simp only [Viewer.notBoth, bind, Except.bind, Option.isSome_none, Option.isSome_some, Bool.false_eq_true,
    false_and, if_false, hpt]
  rw [hl, column_ok (f := fun t => f k t) (by simp; omega) fun t _ => strip_value hR.col (hR.value k t) _]
  simp only [hrac, rowAt_holds hh hkn]
  rfl

/-- what is drawn of a converter at a time, whatever the method `plotting.gaussian` -/
theorem gaussianConverterWith_time {β : Type} (draw : List ℚ → List ℚ → Except PyErr β) (hb : Built s)
    (hm : Mirrors s r) (ha : Analyzer.init junk s r = .ok a) {x : Viewer.Item} {f : ℕ → ℕ → ℚ}
    (hx : Shows s r x f) (hr : Drawable s x.kind) {net : InputNetwork} (hg : (x.network, net) ∈ s.networks)
    (hn : 0 < s.nbScn) {t : ℕ} (ht : t < s.horizon) :
    x.gaussianConverterWith draw a (some (t : ℤ)) none =
      draw ((List.range s.nbScn).map fun k => margin s r net x.network k t)
        ((List.range s.nbScn).map fun k => f k t) := by
  obtain ⟨R, hR, hk⟩ := hx.item hb
  obtain ⟨pt, hpt, hl⟩ := hR.rows.time hb hm ha hr ht x.col
  obtain ⟨rac, hrac, hh⟩ := C45 hb hm ha hg
  unfold Viewer.Item.gaussianConverterWith Viewer.indexArg
  simp only [Viewer.notBoth, bind, Except.bind, Option.isSome_none, Option.isSome_some, Bool.false_eq_true,
    and_false, if_false, hpt]
  rw [hl, column_ok (f := fun k => f k t) (by simp; omega) fun k _ => strip_value hR.col (hR.value k t) _]
  simp only [hrac, columnAt_holds hh ht]
  rfl

/-- C67: the gaussian chart of a consumption, production or link at a time: the values of the scenarios where the
network has a non-negative margin are green, the others red (see below for converters). -/
theorem C67_time (hb : Built s) (hm : Mirrors s r) (ha : Analyzer.init junk s r = .ok a)
    {x : Viewer.Item} {f : ℕ → ℕ → ℚ} (hx : Shows s r x f) (hr : Drawable s x.kind) {net : InputNetwork}
    (hg : (x.network, net) ∈ s.networks) (hn : 0 < s.nbScn) {t : ℕ} (ht : t < s.horizon) :
    ∃ c, x.gaussian a (some (t : ℤ)) none = .ok c ∧
      GaussianOf (List.range s.nbScn) (fun k => f k t) (fun k => margin s r net x.network k t) c := by
  obtain ⟨c, hc, hG⟩ := gaussian_of (l := List.range s.nbScn) (by simp; omega) (fun k => f k t)
    fun k => margin s r net x.network k t
  exact ⟨c, (gaussianWith_time _ hb hm ha hx hr hg hn ht).trans hc, hG⟩

/-- C67: ... in a scenario: the values at the times where the network has a non-negative margin are green, the
others red. -/
theorem C67_scn (hb : Built s) (hm : Mirrors s r) (ha : Analyzer.init junk s r = .ok a)
    {x : Viewer.Item} {f : ℕ → ℕ → ℚ} (hx : Shows s r x f) (hr : Drawable s x.kind) {net : InputNetwork}
    (hg : (x.network, net) ∈ s.networks) (hh0 : 0 < s.horizon) {k : ℕ} (hkn : k < s.nbScn) :
    ∃ c, x.gaussian a none (some (k : ℤ)) = .ok c ∧
      GaussianOf (List.range s.horizon) (fun t => f k t) (fun t => margin s r net x.network k t) c := by
  obtain ⟨c, hc, hG⟩ := gaussian_of (l := List.range s.horizon) (by simp; omega) (fun t => f k t)
    fun t => margin s r net x.network k t
  exact ⟨c, (gaussianWith_scn _ hb hm ha hx hr hg hh0 hkn).trans hc, hG⟩

/-- C67 (partial): the gaussian chart of a converter at a time. Missing: the chart in a scenario
(`C67_converter_refuted`), intakes of converters when one has several sources (`C36_refuted`). -/
theorem C67_converter_partial (hb : Built s) (hm : Mirrors s r) (ha : Analyzer.init junk s r = .ok a)
    {x : Viewer.Item} {f : ℕ → ℕ → ℚ} (hx : Shows s r x f) (hr : Drawable s x.kind) {net : InputNetwork}
    (hg : (x.network, net) ∈ s.networks) (hn : 0 < s.nbScn) {t : ℕ} (ht : t < s.horizon) :
    ∃ c, x.gaussianConverter a (some (t : ℤ)) none = .ok c ∧
      GaussianOf (List.range s.nbScn) (fun k => f k t) (fun k => margin s r net x.network k t) c := by
  obtain ⟨c, hc, hG⟩ := gaussian_of (l := List.range s.nbScn) (by simp; omega) (fun k => f k t)
    fun k => margin s r net x.network k t
  exact ⟨c, (gaussianConverterWith_time _ hb hm ha hx hr hg hn ht).trans hc, hG⟩

/-- C67 is false of converters: the chart in a scenario raises `IndexError` when there are several scenarios,
as the values of all scenarios are asked for. -/
theorem C67_converter_refuted (hb : Built s) (hm : Mirrors s r) (ha : Analyzer.init junk s r = .ok a)
    {x : Viewer.Item} {f : ℕ → ℕ → ℚ} (hx : Shows s r x f) (hr : Drawable s x.kind) {net : InputNetwork}
    (hg : (x.network, net) ∈ s.networks) (hn : 1 < s.nbScn) (hh0 : 0 < s.horizon) {k : ℕ} (hkn : k < s.nbScn) :
    x.gaussianConverter a none (some (k : ℤ)) = .error .indexError := by
  obtain ⟨R, hR, hk⟩ := hx.item hb
  obtain ⟨pt, hpt, _, hp, _⟩ := hR.rows.ask hb hm ha hr x.col (calls := [(.time, .none), (.scn, .none)])
    (List.Perm.refl _) (by simp) (by simp) (Pp := fun _ => true) (by
      intro row k' t' h1 h2
      simp [matches_cons, matches_nil, selects_none])
  rw [List.filter_eq_self.mpr (fun _ _ => rfl)] at hp
  obtain ⟨rac, hrac, hh⟩ := C45 hb hm ha hg
  have hcol : ∃ qt, Viewer.column pt.lines x.col = .ok qt ∧ qt.length = s.nbScn * s.horizon := by
    have h1 : ∀ l ∈ pt.lines, ∃ q, Viewer.Line.value l x.col = .ok q := by
      intro l hl
      obtain ⟨p, _, rfl⟩ := List.mem_map.mp (hp.mem_iff.mp hl)
      exact ⟨_, strip_value hR.col (hR.value p.1 p.2) _⟩
    have h2 : ∀ l ∈ pt.lines, Viewer.Line.value l x.col = .ok ((Viewer.Line.value l x.col).toOption.getD 0) := by
      intro l hl
      obtain ⟨q, hq⟩ := h1 l hl
      rw [hq]; rfl
    have h3 := column_ok (l := pt.lines) (line := id) (by
      rw [← List.length_pos_iff, hp.length_eq, List.length_map, length_pairs]
      exact Nat.mul_pos (by omega) hh0) h2
    rw [List.map_id] at h3
    refine ⟨_, h3, ?_⟩
    rw [List.length_map, hp.length_eq, List.length_map, length_pairs]
  obtain ⟨qt, hqt, hlen⟩ := hcol
  unfold Viewer.Item.gaussianConverter Viewer.Item.gaussianConverterWith Viewer.indexArg
  simp only [Viewer.notBoth, bind, Except.bind, Option.isSome_none, Option.isSome_some, Bool.false_eq_true,
    false_and, if_false, hpt, hqt, hrac, rowAt_holds hh hkn]
  unfold Viewer.gaussianChart
  have h0 : s.horizon < s.nbScn * s.horizon := by nlinarith
  rw [if_neg, if_neg]
  · rw [hlen]; simp; omega
  · intro h; rw [h] at hlen; simp at hlen; omega

/-! ### C68: timeline -/

/-- C68 (partial): the timeline of an element has one curve per scenario, in order, with its values over time.
Missing: intakes of converters when one has several sources (`C36_refuted`). -/
theorem C68_partial (hb : Built s) (hm : Mirrors s r) (ha : Analyzer.init junk s r = .ok a)
    {x : Viewer.Item} {f : ℕ → ℕ → ℚ} (hx : Shows s r x f) (hr : Drawable s x.kind) (hn : 0 < s.nbScn)
    (hh : 0 < s.horizon) :
    x.timeline a = .ok ((List.range s.nbScn).map fun k : ℕ => (Cell.num k, over s (f k))) := by
  obtain ⟨R, hR, _⟩ := hx.item hb
  exact hR.timeline hb hm ha hr hn hh

/-- C68: asking for a number that the table of the element does not have raises -/
theorem C68_column (hb : Built s) (hm : Mirrors s r) (ha : Analyzer.init junk s r = .ok a)
    {x : Viewer.Item} {f : ℕ → ℕ → ℚ} (hx : Shows s r x f) (hr : Drawable s x.kind) (hn : 0 < s.nbScn)
    (hh : 0 < s.horizon) {col : String} (hc : col ∉ numberColumns x.kind) :
    Viewer.Item.timeline a { x with col := col } = .error .keyError := by
  obtain ⟨R, hR, hv⟩ := hx.absent hb hc
  exact timeline_absent hb hm ha hR hr hv hn hh

/-! ### Storages -/

/-- C62, C64 (partial): the monotone charts of a storage show what flows in less what flows out. Missing: studies
with several storages, whose table is wrong (`C34_refuted`). -/
theorem C64_storage_partial (hb : Built s) (hm : Mirrors s r) (ha : Analyzer.init junk s r = .ok a)
    (h1s : storageCount s ≤ 1) {g d : String} {n : InputNode} {i : ℕ} {c : Storage} (hn : HasNode s g d n)
    (hc : n.storages[i]? = some c) (hk0 : 0 < s.nbScn) (hh0 : 0 < s.horizon) (col : String) :
    (∀ t < s.horizon, ∃ p, Viewer.Item.monotone a ⟨g, d, .stor, c.name, col⟩ (some (t : ℤ)) none = .ok p ∧
      MonotoneOf ((List.range s.nbScn).map fun k => storageFlow s r g d i k t) p) ∧
    ∀ k < s.nbScn, ∃ p, Viewer.Item.monotone a ⟨g, d, .stor, c.name, col⟩ none (some (k : ℤ)) = .ok p ∧
      MonotoneOf (over s fun t => storageFlow s r g d i k t) p := by
  have hI := storage_item (r := r) hb hn hc
  have hr : Drawable s .stor := ⟨⟨fun _ => h1s, by simp⟩, by simp⟩
  have hnk : ∀ x ∈ ["flow_in", "flow_out"], x ∉ keyColumns .stor := by decide
  constructor
  · intro t ht
    obtain ⟨pt, hpt, hl⟩ := hI.time hb hm ha hr ht col
    refine ⟨_, ?_, monotone_of _⟩
    unfold Viewer.Item.monotone
    simp only [Viewer.notBoth, bind, Except.bind, Option.isSome_none, Option.isSome_some, Bool.false_eq_true,
      and_false, if_false, hpt]
    unfold Viewer.Item.shown
    have e1 := column_ok (l := List.range s.nbScn) (line := (fun k : ℕ => (([Cell.num k], strip .stor (storageRow r (g, d, i, c) k t)) : Viewer.Line)))
      (col := "flow_in") (f := fun k => (dispatchOf s r k).fin g d i t) (by simp; omega)
      fun k _ => strip_value (hnk _ (by simp)) rfl _
    have e2 := column_ok (l := List.range s.nbScn) (line := (fun k : ℕ => (([Cell.num k], strip .stor (storageRow r (g, d, i, c) k t)) : Viewer.Line)))
      (col := "flow_out") (f := fun k => (dispatchOf s r k).fout g d i t) (by simp; omega)
      fun k _ => strip_value (hnk _ (by simp)) rfl _
    rw [if_pos rfl, hl, sortIndex_sorted (single_lines_sorted _)]
    simp only [e1, e2, bind, Except.bind, pure, Except.pure, zipWith_maps]
    rfl
  · intro k hk
    obtain ⟨pt, hpt, hl⟩ := hI.scn hb hm ha hr hk col
    refine ⟨_, ?_, monotone_of _⟩
    unfold Viewer.Item.monotone
    simp only [Viewer.notBoth, bind, Except.bind, Option.isSome_none, Option.isSome_some, Bool.false_eq_true,
      false_and, if_false, hpt]
    unfold Viewer.Item.shown
    have e1 := column_ok (l := List.range s.horizon) (line := (fun t : ℕ => (([Cell.num t], strip .stor (storageRow r (g, d, i, c) k t)) : Viewer.Line)))
      (col := "flow_in") (f := fun t => (dispatchOf s r k).fin g d i t) (by simp; omega)
      fun t _ => strip_value (hnk _ (by simp)) rfl _
    have e2 := column_ok (l := List.range s.horizon) (line := (fun t : ℕ => (([Cell.num t], strip .stor (storageRow r (g, d, i, c) k t)) : Viewer.Line)))
      (col := "flow_out") (f := fun t => (dispatchOf s r k).fout g d i t) (by simp; omega)
      fun t _ => strip_value (hnk _ (by simp)) rfl _
    rw [if_pos rfl, hl, sortIndex_sorted (single_lines_sorted _)]
    simp only [e1, e2, bind, Except.bind, pure, Except.pure, zipWith_maps]
    rfl

/-- C59 (partial): the candles of the storage of a study solved by the LP optimizer. Missing: studies with several
storages (`C59_refuted`). -/
theorem C59_partial (hs : Ready s) {solver : Solver} {b : Benchmark} (hr : solveLp solver b s = .ok r)
    (ha : Analyzer.init junk s r = .ok a) (h1s : storageCount s ≤ 1) {g d : String} {n : InputNode} {i : ℕ}
    {c : Storage} (hn : HasNode s g d n) (hc : n.storages[i]? = some c) {k : ℕ} (hk : k < s.nbScn)
    (hf : Answers solver s k Cmd.Feasible) (hh : 0 < s.horizon) :
    ∃ opens closes, Viewer.candles a g d c.name (k : ℤ) = .ok (opens, closes) ∧
      CandlesOf s.horizon c.initCapacity (fun t => (dispatchOf s r k).cap g d i t) opens closes := by
  have hm : Mirrors s r := by
    obtain rfl := Ready.result hs hr
    exact mirrors_result (Built.inv hs.built) _ _
  obtain ⟨delta, hdelta, hcan⟩ := candles_ok hs.built hm ha h1s hn hc hk hh
  have h1 : OneStorage s := by
    intro g d n hn
    by_contra h
    have e0 := mem_elements (sel := (·.storages)) hn (List.getElem?_eq_getElem (show 0 < n.storages.length by omega))
    have e1 := mem_elements (sel := (·.storages)) hn (List.getElem?_eq_getElem (show 1 < n.storages.length by omega))
    unfold storageCount at h1s
    rcases he : elements s (·.storages) with _ | ⟨x, _ | ⟨y, l⟩⟩
    · rw [he] at e0; cases e0
    · rw [he, List.mem_singleton] at e0 e1
      rw [← e1] at e0
      simp at e0
    · rw [he] at h1s; simp at h1s
  have hev := C20_one_storage_partial hs h1 hr hk hf g d n hn i c hc
  have hlev : ∀ t, t < s.horizon → levels c.initCapacity delta (t + 1) = (dispatchOf s r k).cap g d i t := by
    intro t
    induction t with
    | zero =>
      intro ht
      rw [hev 0 ht]
      show c.initCapacity + delta 0 = _
      rw [hdelta]
      show _ = c.initCapacity + _ - _
      ring
    | succ t ih =>
      intro ht
      rw [hev (t + 1) ht]
      show levels c.initCapacity delta (t + 1) + delta (t + 1) = _
      rw [ih (by omega), hdelta]
      show _ = (dispatchOf s r k).cap g d i t + _ - _
      ring
  refine ⟨_, _, hcan, by simp, by simp, ?_, ?_, ?_⟩
  · intro _
    rw [List.getElem?_map, List.getElem?_range hh]; rfl
  · intro t ht
    rw [List.getElem?_map, List.getElem?_map, List.getElem?_range ht, List.getElem?_range (by omega)]; rfl
  · intro t ht
    rw [List.getElem?_map, List.getElem?_range ht, Option.map_some, hlev t ht]

/-! ### C63: adequacy -/

/-- C63 (partial): when some cells are positive and some are negative, the percentage is the share of cells with a
non-negative margin, the texts are the margins, and the colours keep signs and order within [-1, 1]. Missing:
matrices without negative cell, or without positive cell (`C63_refuted`). -/
theorem C63_partial (hb : Built s) (hm : Mirrors s r) (ha : Analyzer.init junk s r = .ok a) {g : String}
    {net : InputNetwork} (hg : (g, net) ∈ s.networks) (hp : ∃ q ∈ grid s (margin s r net g), 0 < q)
    (hn : ∃ q ∈ grid s (margin s r net g), q < 0) :
    ∃ pct chart, Viewer.racMatrix a g = .ok (pct, chart) ∧ chart.shape = [s.nbScn, s.horizon] ∧
      chart.text = grid s (margin s r net g) ∧ ColoursOf chart.text chart.color ∧
      pct * (s.nbScn * s.horizon : ℕ) = 100 * ((grid s (margin s r net g)).countP fun q => decide (0 ≤ q) : ℕ) ∧
      0 ≤ pct ∧ pct ≤ 100 := by
  obtain ⟨rac, hrac, hh⟩ := C45 hb hm ha hg
  have hd : rac.data = grid s (margin s r net g) := grid_of_holds hh
  obtain ⟨z, hz, hc⟩ := sdt_ok hp hn
  have hlen : rac.data.length = s.nbScn * s.horizon := hh.1.2
  have hne : rac.data.length ≠ 0 := by
    obtain ⟨q, hq, _⟩ := hp
    rw [hd]; exact (List.length_pos_of_mem hq).ne'
  have hq : (0 : ℚ) < (s.nbScn * s.horizon : ℕ) := by
    have : 0 < s.nbScn * s.horizon := by omega
    exact_mod_cast this
  refine ⟨((rac.data.filter fun q => decide (0 ≤ q)).length : ℚ) / rac.data.length * 100,
    ⟨rac.shape, z, rac.data⟩, ?_, hh.1.1, hd, ?_, ?_, ?_, ?_⟩
  · unfold Viewer.racMatrix Viewer.matrixChart
    simp only [hrac, bind, Except.bind, hd, hz, pure, Except.pure]
    rw [if_neg (hd ▸ hne)]
  · show ColoursOf rac.data z
    rw [hd]; exact hc
  · rw [List.countP_eq_length_filter, ← hd, hlen]
    field_simp
  · exact mul_nonneg (div_nonneg (by positivity) (by positivity)) (by norm_num)
  · rw [hlen]
    have : ((rac.data.filter fun q => decide (0 ≤ q)).length : ℚ) ≤ (s.nbScn * s.horizon : ℕ) := by
      rw [← hlen]
      exact_mod_cast List.length_filter_le _ _
    have := (div_le_one hq).mpr this
    linarith

/-- C63 is false of all studies where no cell is negative (each network is adequate all along), or where no cell is
positive: the chart raises `ValueError`. -/
theorem C63_refuted (hb : Built s) (hm : Mirrors s r) (ha : Analyzer.init junk s r = .ok a) {g : String}
    {net : InputNetwork} (hg : (g, net) ∈ s.networks)
    (h : (∀ q ∈ grid s (margin s r net g), 0 ≤ q) ∨ ∀ q ∈ grid s (margin s r net g), q ≤ 0) :
    Viewer.racMatrix a g = .error .valueError := by
  obtain ⟨rac, hrac, hh⟩ := C45 hb hm ha hg
  have hd : rac.data = grid s (margin s r net g) := grid_of_holds hh
  unfold Viewer.racMatrix Viewer.matrixChart
  simp only [hrac, bind, Except.bind, hd]
  by_cases h0 : (grid s (margin s r net g)).length = 0
  · rw [if_pos h0]
  · rw [if_neg h0, sdt_refused h.symm]

/-! ### Concrete cases -/

/-- the consumption of node `b` -/
theorem anLoad : Shows anStudy anResult ⟨"elec", "b", .cons, "load", "given"⟩ fun k t =>
    cellAt (outNode anResult "elec" "b").consumptions 0 (·.quantity) k t := by
  obtain ⟨c, hc⟩ : ∃ c, (inNode anStudy "elec" "b").consumptions[0]? = some c :=
    Option.isSome_iff_exists.mp (by decide +kernel)
  have hname : c.name = "load" := by
    have : ((inNode anStudy "elec" "b").consumptions[0]?).map (·.name) = some "load" := by decide +kernel
    rw [hc] at this
    exact Option.some.inj this
  rw [← hname]
  exact .given anNode_b hc

/-- 6 given at the first time step and 5 at the second one in the first scenario, 7 and 6 in the second one -/
example : Viewer.Item.timeline anAnalyzer ⟨"elec", "b", .cons, "load", "given"⟩ =
    .ok [(.num 0, [6, 5]), (.num 1, [7, 6])] := by
  rw [C68_partial anStudy_built anResult_mirrors anAnalyzer_init anLoad ⟨⟨by simp, by simp⟩, by simp⟩
    (by decide +kernel) (by decide +kernel)]
  decide +kernel

/-- a consumption has no quantity used -/
example : Viewer.Item.timeline anAnalyzer ⟨"elec", "b", .cons, "load", "used"⟩ = .error .keyError :=
  C68_column anStudy_built anResult_mirrors anAnalyzer_init anLoad ⟨⟨by simp, by simp⟩, by simp⟩
    (by decide +kernel) (by decide +kernel) (by decide)

example : ∃ p, Viewer.Item.monotone anAnalyzer ⟨"elec", "b", .cons, "load", "given"⟩ (some 1) none = .ok p ∧
    MonotoneOf [5, 6] p := by
  obtain ⟨p, h1, h2⟩ := C64_time_partial anStudy_built anResult_mirrors anAnalyzer_init anLoad
    ⟨⟨by simp, by simp⟩, by simp⟩ (by decide +kernel) (t := 1) (by decide +kernel)
  refine ⟨p, h1, ?_⟩
  have e : [(5 : ℚ), 6] = (List.range anStudy.nbScn).map fun k =>
      cellAt (outNode anResult "elec" "b").consumptions 0 (·.quantity) k 1 := by decide +kernel
  rw [e]; exact h2

example : ∃ p, Viewer.Item.monotone anAnalyzer ⟨"elec", "b", .cons, "load", "given"⟩ none (some 1) = .ok p ∧
    MonotoneOf [7, 6] p := by
  obtain ⟨p, h1, h2⟩ := C64_scn_partial anStudy_built anResult_mirrors anAnalyzer_init anLoad
    ⟨⟨by simp, by simp⟩, by simp⟩ (by decide +kernel) (k := 1) (by decide +kernel)
  refine ⟨p, h1, ?_⟩
  have e : [(7 : ℚ), 6] = over anStudy fun t =>
      cellAt (outNode anResult "elec" "b").consumptions 0 (·.quantity) 1 t := by decide +kernel
  rw [e]; exact h2

/-- the margin is 9 in the second scenario at the second time step -/
example : ∃ c, Viewer.Item.gaussian anAnalyzer ⟨"elec", "b", .cons, "load", "given"⟩ (some 1) none = .ok c ∧
    c.1 = [5, 6] ∧ c.2 = [] := by
  obtain ⟨c, h1, h2, h3⟩ := C67_time anStudy_built anResult_mirrors anAnalyzer_init anLoad ⟨⟨by simp, by simp⟩, by simp⟩
    (net := anNet "elec") (anNet_mem "elec" (by decide +kernel)) (by decide +kernel) (t := 1) (by decide +kernel)
  refine ⟨c, h1, ?_, ?_⟩
  · rw [h2]; decide +kernel
  · rw [h3]; decide +kernel

/-- the converter of the example: its gaussian chart in a scenario raises -/
example : ∃ p, p ∈ anStudy.converters ∧ p.1 = "conv" ∧ Viewer.Item.gaussianConverter anAnalyzer
    ⟨p.2.destNetwork, p.2.destNode, .destConv, p.1, "flow"⟩ none (some 1) = .error .indexError := by
  obtain ⟨c, hc⟩ : ∃ c, anStudy.converters.get? "conv" = some c :=
    Option.isSome_iff_exists.mp (by decide +kernel)
  have hm := Dict.mem_of_get? hc
  refine ⟨("conv", c), hm, rfl, ?_⟩
  have hd : c.destNetwork = "elec" := by
    have : (anStudy.converters.get? "conv").map (·.destNetwork) = some "elec" := by decide +kernel
    rw [hc] at this
    exact Option.some.inj this
  exact C67_converter_refuted anStudy_built anResult_mirrors anAnalyzer_init (x := ⟨c.destNetwork, c.destNode,
    .destConv, "conv", "flow"⟩) (.arrival hm) ⟨⟨by simp, by simp⟩, by simp⟩
    (net := anNet "elec") (by rw [hd]; exact anNet_mem "elec" (by decide +kernel)) (by decide +kernel)
    (by decide +kernel) (k := 1) (by decide +kernel)

/-- a node with a storage that is filled at the first time step and used at the second one -/
def tankCalls : List Call :=
  [.studyNetwork "n", .netNode 0 "a", .nodeProduction 0 "sun" (.num 1) (.array ⟨[2], [2, 0], rfl⟩),
   .nodeConsumption 0 "load" (.num 100) (.array ⟨[2], [0, 1], rfl⟩),
   .nodeStorage 0 ⟨"tank", .num 10, .num 3, .num 3, .num 0, 5, .num (1/2)⟩]

def tank : Study := ((World.start 2 1).run tankCalls).study

theorem tank_built : Built tank := ⟨2, 1, tankCalls, rawCalls_of (by decide +kernel), rfl⟩

theorem tank_nonzero : RatiosNonzero tank := by unfold RatiosNonzero; decide +kernel

theorem tank_ready : Ready tank where
  built := tank_built
  complete := by unfold CompleteConverters; decide +kernel
  ratios := RatiosNonzero.usable (by unfold RatiosNonzero; decide +kernel)
  clean := cleanSources_of (by decide +kernel)

def tankAnswer : Var → ℚ
  | .prod 0 .. => 2
  | .fin 0 .. => 2
  | .fout 1 .. => 1
  | .cap 0 .. => 6
  | .cap 1 .. => 5
  | _ => 0

theorem tankAnswer_feasible : Answers (fun _ => tankAnswer) tank 0 Cmd.Feasible := by
  intro steps log h
  obtain rfl := logOf_eq h
  exact Cmd.feasible_of_check (by decide +kernel)

/-- from 5 to 6, then from 6 to 5 -/
example : ∃ r a o c, solveLp (fun _ => tankAnswer) ⟨[], [], 0, 0⟩ tank = .ok r ∧
    Analyzer.init (fun _ _ _ => .nan) tank r = .ok a ∧ Viewer.candles a "n" "a" "tank" 0 = .ok (o, c) ∧
    o[0]? = some 5 ∧ c[0]? = some 6 ∧ o[1]? = some 6 ∧ c[1]? = some 5 := by
  have hr := Ready.solve tank_ready (fun _ => tankAnswer) ⟨[], [], 0, 0⟩
  obtain ⟨a, ha⟩ := init_total tank_built (mirrors_result (Built.inv tank_built) _ _) (fun _ _ _ => .nan)
    tank_ready.complete (by decide +kernel) (by decide +kernel)
  obtain ⟨c, hc⟩ : ∃ c, (inNode tank "n" "a").storages[0]? = some c :=
    Option.isSome_iff_exists.mp (by decide +kernel)
  have h1 : ((inNode tank "n" "a").storages[0]?).map (fun c => (c.name, c.initCapacity)) = some ("tank", 5) := by
    decide +kernel
  rw [hc, Option.map_some, Option.some.injEq, Prod.mk.injEq] at h1
  obtain ⟨o, cl, h, hC⟩ := C59_partial tank_ready hr ha (by decide +kernel)
    (hasNode_inNode (by decide +kernel)) hc (k := 0) (by decide +kernel) tankAnswer_feasible (by decide +kernel)
  rw [h1.1] at h
  rw [h1.2] at hC
  have c0 := hC.close 0 (by decide +kernel)
  have c1 := hC.close 1 (by decide +kernel)
  refine ⟨_, a, o, cl, hr, ha, h, hC.first (by decide +kernel), ?_, ?_, ?_⟩
  · rw [c0]; decide +kernel
  · rw [hC.next 0 (by decide +kernel), c0]; decide +kernel
  · rw [c1]; decide +kernel

/-- what a chart shows after solving -/
def charted {α : Type} (s : Study) (X : Vals) (f : Analyzer → Except PyErr α) : Except PyErr α := do
  let a ← Analyzer.init (fun _ _ _ => .nan) s (resultAll s X ⟨[], [], 0, 0⟩)
  f a

theorem charted_cases {α : Type} {s : Study} {X : Vals} {f : Analyzer → Except PyErr α}
    {x : Except PyErr α} (h : charted s X f = x) :
    (∃ e, Analyzer.init (fun _ _ _ => .nan) s (resultAll s X ⟨[], [], 0, 0⟩) = .error e ∧ x = .error e) ∨
    ∃ a, Analyzer.init (fun _ _ _ => .nan) s (resultAll s X ⟨[], [], 0, 0⟩) = .ok a ∧ f a = x := by
  subst h
  unfold charted
  cases h1 : Analyzer.init (fun _ _ _ => .nan) s (resultAll s X ⟨[], [], 0, 0⟩) with
  | error e => exact .inl ⟨e, rfl, rfl⟩
  | ok a => exact .inr ⟨a, rfl, rfl⟩

/-- C59 refuted: with two storages in a study, there are no candles for the first one -/
theorem C59_refuted : ∃ s r junk a c, Ready s ∧ Mirrors s r ∧ Analyzer.init junk s r = .ok a ∧
    (∃ n, HasNode s "n" "a" n ∧ c ∈ n.storages) ∧ 0 < s.nbScn ∧ 0 < s.horizon ∧
    Viewer.candles a "n" "a" c.name 0 = .error .keyError := by
  obtain ⟨a, ha⟩ : ∃ a, Analyzer.init (fun _ _ _ => .nan) costStor
      (resultAll costStor (fun _ => costAnswer) ⟨[], [], 0, 0⟩) = .ok a := by
    have h : charted costStor (fun _ => costAnswer) (fun _ => .ok ()) = .ok () := by decide +kernel
    rcases charted_cases h with ⟨e, _, h1⟩ | ⟨a, h1, _⟩
    · cases h1
    · exact ⟨a, h1⟩
  obtain ⟨c, hc⟩ : ∃ c, (inNode costStor "n" "a").storages[0]? = some c :=
    Option.isSome_iff_exists.mp (by decide +kernel)
  have hname : c.name = "s1" := by
    have : ((inNode costStor "n" "a").storages[0]?).map (·.name) = some "s1" := by decide +kernel
    rw [hc] at this
    exact Option.some.inj this
  refine ⟨costStor, _, _, a, c, costStor_ready, mirrors_result (Built.inv costStor_built) _ _, ha,
    ⟨_, hasNode_inNode (by decide +kernel), List.mem_of_getElem? hc⟩, by decide +kernel, by decide +kernel, ?_⟩
  rw [hname]
  have h : charted costStor (fun _ => costAnswer) (fun a => Viewer.candles a "n" "a" "s1" 0) =
      .error .keyError := by decide +kernel
  rcases charted_cases h with ⟨e, h1, _⟩ | ⟨a', h1, h2⟩
  · rw [ha] at h1; cases h1
  · rw [ha] at h1
    cases h1
    exact h2

/-- the network of the example is adequate all along: its matrix cannot be drawn -/
example : Viewer.racMatrix anAnalyzer "elec" = .error .valueError :=
  C63_refuted anStudy_built anResult_mirrors anAnalyzer_init (anNet_mem "elec" (by decide +kernel))
    (.inl (by decide +kernel))

/-- a node with enough at the first time step only -/
def shortCalls : List Call :=
  [.studyNetwork "n", .netNode 0 "a", .nodeProduction 0 "p" (.num 1) (.num 10),
   .nodeConsumption 0 "load" (.num 100) (.array ⟨[2], [5, 20], rfl⟩)]

def short : Study := ((World.start 2 1).run shortCalls).study

theorem short_built : Built short := ⟨2, 1, shortCalls, rawCalls_of (by decide +kernel), rfl⟩

def shortVals : Vals := fun _ v => match v with
  | .prod 0 .. => 5
  | .prod 1 .. => 10
  | .lol 1 .. => 10
  | _ => 0

/-- margins of 5 and -10 -/
example : ∃ a, Analyzer.init (fun _ _ _ => .nan) short (resultAll short shortVals ⟨[], [], 0, 0⟩) = .ok a ∧
    ∃ pct chart, Viewer.racMatrix a "n" = .ok (pct, chart) ∧ chart.text = [5, -10] ∧
      ColoursOf chart.text chart.color ∧ pct * 2 = 100 := by
  have hm : Mirrors short (resultAll short shortVals ⟨[], [], 0, 0⟩) := mirrors_result (Built.inv short_built) _ _
  obtain ⟨a, ha⟩ := init_total short_built hm (fun _ _ _ => .nan)
    (by unfold CompleteConverters; decide +kernel) (by decide +kernel)
    (by decide +kernel)
  obtain ⟨net, hnet⟩ : ∃ net, short.networks.get? "n" = some net :=
    Option.isSome_iff_exists.mp (by decide +kernel)
  have e : grid short (margin short (resultAll short shortVals ⟨[], [], 0, 0⟩) net "n") = [5, -10] := by
    have : (short.networks.get? "n").map (fun net => grid short
        (margin short (resultAll short shortVals ⟨[], [], 0, 0⟩) net "n")) = some [5, -10] := by decide +kernel
    rw [hnet] at this
    exact Option.some.inj this
  obtain ⟨pct, chart, h1, _, h2, h3, h4, _⟩ := C63_partial short_built hm ha (Dict.mem_of_get? hnet)
    ⟨5, by rw [e]; simp, by norm_num⟩ ⟨-10, by rw [e]; simp, by norm_num⟩
  refine ⟨a, ha, pct, chart, h1, by rw [h2, e], h3, ?_⟩
  rw [e] at h4
  have e2 : ((short.nbScn * short.horizon : ℕ) : ℚ) = 2 := by decide +kernel
  rw [e2] at h4
  rw [h4]
  decide +kernel

/-! ### The theorems applied to concrete cases -/

example := C67_scn anStudy_built anResult_mirrors anAnalyzer_init anLoad ⟨⟨by simp, by simp⟩, by simp⟩
  (net := anNet "elec") (anNet_mem "elec" (by decide +kernel)) (by decide +kernel) (k := 1) (by decide +kernel)

example := C67_converter_partial anStudy_built anResult_mirrors anAnalyzer_init anLoad ⟨⟨by simp, by simp⟩, by simp⟩
  (net := anNet "elec") (anNet_mem "elec" (by decide +kernel)) (by decide +kernel) (t := 1) (by decide +kernel)

example := C64_storage_partial anStudy_built anResult_mirrors anAnalyzer_init (by decide +kernel) anNode_b (i := 0)
  (c := ⟨"cell", ⟨.scalar 8, 2, 2⟩, ⟨.scalar 2, 2, 2⟩, ⟨.scalar 2, 2, 2⟩, ⟨.scalar 1, 2, 2⟩, 5, ⟨.scalar (9/10), 2, 2⟩⟩)
  (by decide +kernel) (by decide +kernel) (by decide +kernel) "capacity"

end Hadar.Props
