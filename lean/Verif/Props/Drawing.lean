import Verif.Proofs.Drawing
import Verif.Props.ViewerMap

/-! # What charts draw beyond the data (C94, C95, C96) -/

namespace Hadar.Props

open Hadar Hadar.Spec
open scoped NNReal

variable {junk : Junk} {s : Study} {r : Result} {a : Analyzer}

/-! ### C94: gaussian charts -/

theorem gaussian_drawn {ι : Type} {l : List ι} (value margin : ι → ℚ) (h : ∃ i ∈ l, ∃ j ∈ l, value i ≠ value j) :
    ∃ d c, Viewer.gaussianDrawing (l.map margin) (l.map value) = .ok d ∧ 1.41421 < c ∧ c < 1.41422 ∧
      GaussianDrawn l value margin c d := by
  obtain ⟨i, hi, j, hj, hij⟩ := h
  have hl : l ≠ [] := by intro h; rw [h] at hi; cases hi
  obtain ⟨d, h1, h2, h3, h4, h5⟩ := gaussianDrawing_of hl value margin
  have hv : 0 < codeVar ((l.map value).map fun q : ℚ => (q : ℝ)) := by
    rw [pos_iff_ne_zero]
    intro h0
    rw [codeVar_eq_zero (by simpa using hl)] at h0
    have e1 := h0 (value i : ℝ) (List.mem_map_of_mem (List.mem_map_of_mem hi))
    have e2 := h0 (value j : ℝ) (List.mem_map_of_mem (List.mem_map_of_mem hj))
    exact hij (by exact_mod_cast e1.trans e2.symm)
  refine ⟨d, overdraw, h1, overdraw_bounds.1, overdraw_bounds.2, h2, h3, h4, _, _,
    codeMoments (by simpa using hl), hv, ?_⟩
  intro p hp
  rw [h5 p hp, bell_eq hv]

/-- C94 (partial): the gaussian chart of a consumption, production or link at a time is drawn on the normal law
of its values over scenarios, but for a factor which is nearly the square root of 2 (`C94_refuted`). Missing: the
right factor, and values that are all the same (`C94_flat_refuted`). -/
theorem C94_time_partial (hb : Built s) (hm : Mirrors s r) (ha : Analyzer.init junk s r = .ok a)
    {x : Viewer.Item} {f : ℕ → ℕ → ℚ} (hx : Shows s r x f) (hr : Drawable s x.kind) {net : InputNetwork}
    (hg : (x.network, net) ∈ s.networks) {t : ℕ} (ht : t < s.horizon)
    (hd : ∃ k < s.nbScn, ∃ k' < s.nbScn, f k t ≠ f k' t) :
    ∃ d c, x.gaussianWith Viewer.gaussianDrawing a (some (t : ℤ)) none = .ok d ∧ 1.41421 < c ∧ c < 1.41422 ∧
      GaussianDrawn (List.range s.nbScn) (fun k => f k t) (fun k => margin s r net x.network k t) c d := by
  obtain ⟨k, hk, k', hk', hne⟩ := hd
  obtain ⟨d, c, h1, h2⟩ := gaussian_drawn (l := List.range s.nbScn) (fun k => f k t)
    (fun k => margin s r net x.network k t) ⟨k, by simpa, k', by simpa, hne⟩
  exact ⟨d, c, (gaussianWith_time _ hb hm ha hx hr hg (by omega) ht).trans h1, h2⟩

/-- C94 (partial): ... in a scenario, on the normal law of its values over time. Missing: as above. -/
theorem C94_scn_partial (hb : Built s) (hm : Mirrors s r) (ha : Analyzer.init junk s r = .ok a)
    {x : Viewer.Item} {f : ℕ → ℕ → ℚ} (hx : Shows s r x f) (hr : Drawable s x.kind) {net : InputNetwork}
    (hg : (x.network, net) ∈ s.networks) {k : ℕ} (hk : k < s.nbScn)
    (hd : ∃ t < s.horizon, ∃ t' < s.horizon, f k t ≠ f k t') :
    ∃ d c, x.gaussianWith Viewer.gaussianDrawing a none (some (k : ℤ)) = .ok d ∧ 1.41421 < c ∧ c < 1.41422 ∧
      GaussianDrawn (List.range s.horizon) (fun t => f k t) (fun t => margin s r net x.network k t) c d := by
  obtain ⟨t, ht, t', ht', hne⟩ := hd
  obtain ⟨d, c, h1, h2⟩ := gaussian_drawn (l := List.range s.horizon) (fun t => f k t)
    (fun t => margin s r net x.network k t) ⟨t, by simpa, t', by simpa, hne⟩
  exact ⟨d, c, (gaussianWith_scn _ hb hm ha hx hr hg (by omega) hk).trans h1, h2⟩

/-- C94 (partial): ... for a converter at a time. Missing: as above, and charts of converters in a scenario
(`C67_converter_refuted`). -/
theorem C94_converter_partial (hb : Built s) (hm : Mirrors s r) (ha : Analyzer.init junk s r = .ok a)
    {x : Viewer.Item} {f : ℕ → ℕ → ℚ} (hx : Shows s r x f) (hr : Drawable s x.kind) {net : InputNetwork}
    (hg : (x.network, net) ∈ s.networks) {t : ℕ} (ht : t < s.horizon)
    (hd : ∃ k < s.nbScn, ∃ k' < s.nbScn, f k t ≠ f k' t) :
    ∃ d c, x.gaussianConverterWith Viewer.gaussianDrawing a (some (t : ℤ)) none = .ok d ∧ 1.41421 < c ∧
      c < 1.41422 ∧
      GaussianDrawn (List.range s.nbScn) (fun k => f k t) (fun k => margin s r net x.network k t) c d := by
  obtain ⟨k, hk, k', hk', hne⟩ := hd
  obtain ⟨d, c, h1, h2⟩ := gaussian_drawn (l := List.range s.nbScn) (fun k => f k t)
    (fun k => margin s r net x.network k t) ⟨k, by simpa, k', by simpa, hne⟩
  exact ⟨d, c, (gaussianConverterWith_time _ hb hm ha hx hr hg (by omega) ht).trans h1, h2⟩

/-- a drawing has one factor only -/
theorem gaussianDrawn_factor {ι : Type} {l : List ι} {value margin : ι → ℚ} {c c' : ℝ} {d : Viewer.GaussianDrawing}
    (h : GaussianDrawn l value margin c d) (h' : GaussianDrawn l value margin c' d) : c = c' := by
  obtain ⟨m, v, e1, e2, e3⟩ := h.normal
  obtain ⟨m', v', e1', e2', e3'⟩ := h'.normal
  obtain ⟨hl, hi, hmem, _, _⟩ := h.places
  obtain ⟨rfl, rfl⟩ := moments_unique (by intro h0; rw [h0] at hmem; cases hmem) e1 e1'
  obtain ⟨p, hp⟩ := List.exists_mem_of_length_pos (l := d.curve) (by omega)
  have h1 := e3 p (by simp [hp])
  have h2 := e3' p (by simp [hp])
  rw [h1, Option.some.injEq] at h2
  exact mul_right_cancel₀ (ProbabilityTheory.gaussianPDFReal_pos m v p.1 e2.ne').ne' h2

/-- C94 refuted: the chart of an element at a time, if its values are not all the same, is never drawn on the
density of the normal law: it is more than 1.41 times as high. -/
theorem C94_refuted (hb : Built s) (hm : Mirrors s r) (ha : Analyzer.init junk s r = .ok a)
    {x : Viewer.Item} {f : ℕ → ℕ → ℚ} (hx : Shows s r x f) (hr : Drawable s x.kind) {net : InputNetwork}
    (hg : (x.network, net) ∈ s.networks) {t : ℕ} (ht : t < s.horizon)
    (hd : ∃ k < s.nbScn, ∃ k' < s.nbScn, f k t ≠ f k' t) :
    ∃ d, x.gaussianWith Viewer.gaussianDrawing a (some (t : ℤ)) none = .ok d ∧
      ∀ c, GaussianDrawn (List.range s.nbScn) (fun k => f k t) (fun k => margin s r net x.network k t) c d →
        1.41 < c := by
  obtain ⟨d, c, h1, h2, _, h3⟩ := C94_time_partial hb hm ha hx hr hg ht hd
  refine ⟨d, h1, fun c' h' => ?_⟩
  rw [gaussianDrawn_factor h' h3]
  norm_num at h2 ⊢
  linarith

/-- C94 refuted: when all the values are the same nothing is drawn, as all ordinates are NaN -/
theorem C94_flat_refuted (hb : Built s) (hm : Mirrors s r) (ha : Analyzer.init junk s r = .ok a)
    {x : Viewer.Item} {f : ℕ → ℕ → ℚ} (hx : Shows s r x f) (hr : Drawable s x.kind) {net : InputNetwork}
    (hg : (x.network, net) ∈ s.networks) (hn : 0 < s.nbScn) {t : ℕ} (ht : t < s.horizon) {q : ℚ}
    (hq : ∀ k < s.nbScn, f k t = q) :
    ∃ d, x.gaussianWith Viewer.gaussianDrawing a (some (t : ℤ)) none = .ok d ∧ d.curve.length = 100 ∧
      (d.green ++ d.red).length = s.nbScn ∧ ∀ p ∈ d.curve ++ d.green ++ d.red, p.2 = none := by
  have hl : List.range s.nbScn ≠ [] := by simp; omega
  obtain ⟨d, h1, h2, h3, h4, h5⟩ := gaussianDrawing_of hl (fun k => f k t)
    fun k => margin s r net x.network k t
  refine ⟨d, (gaussianWith_time _ hb hm ha hx hr hg hn ht).trans h1, h4.1, ?_, ?_⟩
  · have e1 := congrArg List.length h2
    have e2 := congrArg List.length h3
    rw [List.length_map, List.length_map] at e1 e2
    rw [List.length_append, e1, e2]
    have := List.length_eq_length_filter_add (l := List.range s.nbScn)
      fun k => decide (0 ≤ margin s r net x.network k t)
    rw [List.length_range] at this
    refine Eq.trans ?_ this.symm
    congr 2
    refine List.filter_congr fun k _ => ?_
    rw [← decide_not, decide_eq_decide, not_le]
  · intro p hp
    rw [h5 p hp]
    have h0 : codeVar (((List.range s.nbScn).map fun k => f k t).map fun q : ℚ => (q : ℝ)) = 0 := by
      rw [codeVar_eq_zero (by simpa using hl)]
      have e : ((List.range s.nbScn).map fun k => f k t).map (fun q : ℚ => (q : ℝ)) =
          List.replicate s.nbScn (q : ℝ) := by
        rw [List.map_map, List.eq_replicate_iff]
        refine ⟨by simp, fun b hb => ?_⟩
        obtain ⟨k, hk, rfl⟩ := List.mem_map.mp hb
        simp only [Function.comp_apply]
        rw [hq k (by simpa using hk)]
      rw [e]
      intro x hx
      rw [(List.mem_replicate.mp hx).2]
      unfold Viewer.npMean
      have : (s.nbScn : ℝ) ≠ 0 := by positivity
      rw [List.sum_replicate, List.length_replicate, nsmul_eq_mul, mul_div_cancel_left₀ _ this]
    rw [h0]
    unfold Viewer.bell
    simp

/-! ### C95: exchange maps -/

/-- C95: on the map of a network every node is at its place, with its balance, and every pair of linked nodes has an
arrow from the node that the net flow leaves to the one it reaches, the colour of which grows with the flow. The
coordinates of the nodes must be given, and a size which is not 0. -/
theorem C95 (hb : Built s) (hm : Mirrors s r) (ha : Analyzer.init junk s r = .ok a) {g : String}
    {net : InputNetwork} (hg : (g, net) ∈ s.networks) (h0 : net.nodes ≠ []) {coord : Dict String (ℚ × ℚ)}
    (hco : ∀ p ∈ net.nodes, ∃ q, Dict.get? coord p.1 = some q) {k t : ℕ} (hk : k < s.nbScn) (ht : t < s.horizon)
    (limit : Option ℚ) {size : ℚ} (hs : size ≠ 0) :
    ∃ d l, Viewer.mapWith (Viewer.mapDrawing (some coord) size) a g (t : ℤ) (k : ℤ) limit = .ok d ∧
      List.Forall₂ (fun (p : String × InputNode) (q : (ℚ × ℚ) × ℚ) => Dict.get? coord p.1 = some q.1 ∧
        q.2 = balanceOf s r g p.1 p.2 k t) net.nodes d.nodes ∧
      ArrowsDrawn s g (fun x y => flowBetween s r k g x y t) coord d.arrows ∧
      (∀ l', limit = some l' → l = l') ∧
      (limit = none → IsPeak (net.nodes.map fun p => balanceOf s r g p.1 p.2 k t) l) ∧
      (l ≠ 0 → ∀ ar ∈ d.arrows, ar.shade = .num (1 / 2 + ar.text / (2 * l))) ∧
      (l = 0 → ∀ ar ∈ d.arrows, ar.shade = if ar.text = 0 then .nan else .inf false) ∧
      (net.nodes.length * d.center.1 = (d.nodes.map fun q => q.1.1).sum ∧
        net.nodes.length * d.center.2 = (d.nodes.map fun q => q.1.2).sum) ∧
      d.zoom * size = 100 / 7 := by
  obtain ⟨chart, h1, h2, h3, h4, h5⟩ := C61 hb hm ha hg h0 hco hk ht limit
  have hi := Built.inv hb
  have hplace : ∀ x q, Dict.get? coord x = some q → Viewer.place coord (.str x) = q := by
    intro x q h
    unfold Viewer.place
    simp [h]
  have hends : ∀ x y, Linked s g x y → (∃ q, Dict.get? coord x = some q) ∧ ∃ q, Dict.get? coord y = some q := by
    rintro x y ⟨n, ⟨net', hg', hx⟩, hy⟩
    have : net' = net := by
      have e1 := hi.get?_network hg
      have e2 := hi.get?_network hg'
      rw [e1] at e2
      exact (Option.some.inj e2).symm
    subst this
    obtain ⟨c, hc, rfl⟩ := List.mem_map.mp hy
    obtain ⟨p, hp, hpe⟩ := List.mem_map.mp (hi.links g net' hg' x n hx c hc)
    exact ⟨hco _ hx, hpe ▸ hco p hp⟩
  have hdraw : Viewer.mapWith (Viewer.mapDrawing (some coord) size) a g (t : ℤ) (k : ℤ) limit =
      Viewer.drawMap coord size chart := by
    have : Viewer.mapDrawing (some coord) size = fun n ar l =>
        Viewer.mapChart (some coord) n ar l >>= fun c => Viewer.drawMap coord size c := rfl
    rw [this, mapWith_bind]
    unfold Viewer.map at h1
    rw [h1]
    rfl
  rw [hdraw]
  unfold Viewer.drawMap
  rw [if_neg hs]
  refine ⟨_, chart.limit, rfl, ?_, ⟨?_, ?_⟩, fun l' h => h4 l' h, h5, ?_, ?_, ?_, ?_⟩
  · simp only [h2, List.map_map, List.zip_map', Function.comp_def]
    rw [List.forall₂_map_right_iff]
    refine List.forall₂_same.mpr fun p hp => ?_
    obtain ⟨q, hq⟩ := hco p hp
    exact ⟨by rw [hq, hplace _ _ hq], rfl⟩
  · intro ar har
    obtain ⟨p, hp, rfl⟩ := List.mem_map.mp har
    obtain ⟨x, y, e, hl, hv, hn⟩ := h3.drawn p hp
    have hxy : (∃ q, Dict.get? coord x = some q) ∧ ∃ q, Dict.get? coord y = some q := by
      rcases hl with hl | hl
      · exact hends _ _ hl
      · exact (hends _ _ hl).symm
    obtain ⟨⟨S, hS⟩, E, hE⟩ := hxy
    refine ⟨x, y, S, E, hl, hS, hE, ?_, hv, hn⟩
    rw [e]
    simp only [hplace _ _ hS, hplace _ _ hE]
    exact arrowOf_from S E _ _
  · intro x y hxy
    obtain ⟨⟨S, hS⟩, E, hE⟩ := hends _ _ hxy
    refine ⟨S, E, hS, hE, fun h => ?_, fun h => ?_⟩
    · obtain ⟨p, hp, hpe⟩ := List.mem_map.mp ((h3.all x y hxy).1 h)
      refine ⟨_, List.mem_map_of_mem hp, ?_, ?_⟩
      · rw [hpe]
        simp only [hplace _ _ hS, hplace _ _ hE]
        exact arrowOf_from S E _ _
      · obtain ⟨x', y', e, _, hv, _⟩ := h3.drawn p hp
        rw [hpe, Prod.mk.injEq, Cell.str.injEq, Cell.str.injEq] at e
        obtain ⟨rfl, rfl⟩ := e
        exact hv
    · obtain ⟨p, hp, hpe⟩ := List.mem_map.mp ((h3.all x y hxy).2 h)
      refine ⟨_, List.mem_map_of_mem hp, ?_, ?_⟩
      · rw [hpe]
        simp only [hplace _ _ hS, hplace _ _ hE]
        exact arrowOf_from E S _ _
      · obtain ⟨x', y', e, _, hv, _⟩ := h3.drawn p hp
        rw [hpe, Prod.mk.injEq, Cell.str.injEq, Cell.str.injEq] at e
        obtain ⟨rfl, rfl⟩ := e
        exact hv
  · intro hl ar har
    obtain ⟨p, hp, rfl⟩ := List.mem_map.mp har
    obtain ⟨_, _, _, _, _, hn⟩ := h3.drawn p hp
    unfold Viewer.arrowOf Viewer.shadeOf
    simp only [if_neg hl, abs_of_nonneg hn]
    congr 1
    field_simp
    ring
  · intro hl ar har
    obtain ⟨p, hp, rfl⟩ := List.mem_map.mp har
    unfold Viewer.arrowOf Viewer.shadeOf
    simp only [if_pos hl]
  · have hl : (net.nodes.length : ℚ) ≠ 0 := by
      rw [Nat.cast_ne_zero]
      exact fun h => h0 (List.length_eq_zero_iff.mp h)
    simp only [h2, List.map_map, List.zip_map', Function.comp_def, List.length_map]
    exact ⟨mul_div_cancel₀ _ hl, mul_div_cancel₀ _ hl⟩
  · simp only
    field_simp

/-- C95: a size of 0 raises -/
theorem C95_size (a : Analyzer) (coord : Dict String (ℚ × ℚ)) (g : String) (t k : ℤ) (limit : Option ℚ) :
    ∃ e, Viewer.mapWith (Viewer.mapDrawing (some coord) 0) a g t k limit = .error e := by
  have : Viewer.mapDrawing (some coord) 0 = fun n ar l =>
      Viewer.mapChart (some coord) n ar l >>= fun c => Viewer.drawMap coord 0 c := rfl
  rw [this, mapWith_bind]
  cases Viewer.mapWith (Viewer.mapChart (some coord)) a g t k limit with
  | error e => exact ⟨e, rfl⟩
  | ok c => exact ⟨.zeroDivisionError, rfl⟩

/-! ### C96: time axis -/

/-- C96: without dates the time axis counts time steps from 0; with two dates it goes from the first to the last one,
evenly; one date only is refused -/
theorem C96 (horizon : ℕ) (start stop : Option ℚ) :
    (start = none → stop = none → Viewer.timeIndex start stop horizon = .ok ((List.range horizon).map fun i : ℕ => (i : ℚ))) ∧
    (∀ x y, start = some x → stop = some y → ∃ l, Viewer.timeIndex start stop horizon = .ok l ∧
      EvenlySpaced x y horizon l) ∧
    (start.isSome ≠ stop.isSome → Viewer.timeIndex start stop horizon = .error .valueError) := by
  refine ⟨?_, ?_, ?_⟩
  · rintro rfl rfl; rfl
  · rintro x y rfl rfl
    refine ⟨_, rfl, by simp, ?_, ?_, ?_⟩
    · intro z hz
      cases horizon with
      | zero => simp at hz
      | succ n =>
        rw [List.head?_map, List.range_succ_eq_map] at hz
        simp at hz
        exact hz.symm
    · intro h
      obtain ⟨n, rfl⟩ : ∃ n, horizon = n + 1 := ⟨horizon - 1, by omega⟩
      have hn : (n : ℚ) ≠ 0 := by
        have : 0 < n := by omega
        positivity
      rw [List.range_succ, List.map_append, List.map_singleton, List.getLast?_concat]
      push_cast
      rw [add_sub_cancel_right, mul_div_cancel₀ _ hn]
      congr 1
      ring
    · intro i u w hu hw
      rw [List.getElem?_map, Option.map_eq_some_iff] at hu hw
      obtain ⟨j, hj, rfl⟩ := hu
      obtain ⟨j', hj', rfl⟩ := hw
      obtain ⟨a1, a2⟩ := List.getElem?_eq_some_iff.mp hj
      obtain ⟨b1, b2⟩ := List.getElem?_eq_some_iff.mp hj'
      simp only [List.getElem_range] at a2 b2
      rw [List.length_range] at b1
      subst a2 b2
      have hn : (horizon : ℚ) - 1 ≠ 0 := by
        have : (2 : ℚ) ≤ horizon := by exact_mod_cast (by omega : 2 ≤ horizon)
        intro h0
        linarith
      push_cast
      field_simp
      ring
  · intro h
    cases start <;> cases stop <;> simp_all [Viewer.timeIndex]

/-! ### Examples -/

/-- the load of node `b` is 5, then 6 in the two scenarios at the second time step -/
example : ∃ d c, Viewer.Item.gaussianWith Viewer.gaussianDrawing anAnalyzer ⟨"elec", "b", .cons, "load", "given"⟩
    (some ((1 : ℕ) : ℤ)) none = .ok d ∧ 1.41421 < c ∧ c < 1.41422 ∧ d.green.map Prod.fst = [5, 6] ∧
    ∃ m v, Moments [5, 6] m v ∧ OnNormal c m v d := by
  obtain ⟨d, c, h1, h2, h3, h4⟩ := C94_time_partial anStudy_built anResult_mirrors anAnalyzer_init anLoad
    ⟨⟨by simp, by simp⟩, by simp⟩ (net := anNet "elec") (anNet_mem "elec" (by decide +kernel)) (t := 1)
    (by decide +kernel) (by decide +kernel)
  refine ⟨d, c, h1, h2, h3, ?_, ?_⟩
  · rw [h4.green]
    have e : (List.filter (fun k => decide (0 ≤ margin anStudy anResult (anNet "elec") "elec" k 1))
      (List.range anStudy.nbScn)).map (fun k => cellAt (outNode anResult "elec" "b").consumptions 0 (·.quantity) k 1)
        = [5, 6] := by decide +kernel
    have e' := congrArg (List.map fun q : ℚ => (q : ℝ)) e
    rw [List.map_map] at e'
    refine Eq.trans e' ?_
    norm_num
  · obtain ⟨m, v, e1, _, e3⟩ := h4.normal
    have e : (List.range anStudy.nbScn).map (fun k => cellAt (outNode anResult "elec" "b").consumptions 0
      (·.quantity) k 1) = [5, 6] := by decide +kernel
    rw [e] at e1
    exact ⟨m, v, e1, e3⟩

/-- the arrow of the export from `a` at (0, 0) to `b` at (10, 0): the tip is at (9, 0) -/
example : Viewer.arrowOf (0, 0) (10, 0) 3 3 = ⟨(0, 0), (10, 0), (9, 0), (8, 1), (8, -1), 3, .num 1⟩ := by
  decide +kernel

example : ∃ d, Viewer.mapWith (Viewer.mapDrawing (some [("a", (0, 0)), ("b", (10, 0))]) 1) anAnalyzer "elec"
    ((1 : ℕ) : ℤ) ((1 : ℕ) : ℤ) none = .ok d ∧ ∃ ar ∈ d.arrows, ar.start = (0, 0) ∧ ar.stop = (10, 0) ∧ ar.text = 3 := by
  have hnet : (anNet "elec").nodes.map Prod.fst = ["a", "b"] := by decide +kernel
  obtain ⟨d, l, h1, -, h3, -⟩ := C95 anStudy_built anResult_mirrors anAnalyzer_init
    (anNet_mem "elec" (by decide +kernel)) (by intro h; rw [h] at hnet; cases hnet)
    (coord := [("a", (0, 0)), ("b", (10, 0))]) (by
      intro p hp
      have : p.1 ∈ (anNet "elec").nodes.map Prod.fst := List.mem_map_of_mem hp
      rw [hnet] at this
      simp only [List.mem_cons, List.not_mem_nil, or_false] at this
      rcases this with h | h <;> rw [h]
      · exact ⟨(0, 0), by decide +kernel⟩
      · exact ⟨(10, 0), by decide +kernel⟩) (k := 1) (t := 1) (by decide +kernel) (by decide +kernel) none
    (size := 1) (by norm_num)
  refine ⟨d, h1, ?_⟩
  obtain ⟨n, hn⟩ : ∃ n, Dict.get? (anNet "elec").nodes "a" = some n :=
    Option.isSome_iff_exists.mp (by decide +kernel)
  have hl : Linked anStudy "elec" "a" "b" := by
    refine ⟨n, ⟨anNet "elec", anNet_mem "elec" (by decide +kernel), Dict.mem_of_get? hn⟩, ?_⟩
    have : (Dict.get? (anNet "elec").nodes "a").map (fun n => n.links.map (·.dest)) = some ["b"] := by decide +kernel
    rw [hn, Option.map_some, Option.some.injEq] at this
    rw [this]; simp
  obtain ⟨S, E, hS, hE, h4, -⟩ := h3.all "a" "b" hl
  obtain ⟨ar, har, hf, ht⟩ := h4 (by decide +kernel)
  have e1 : Dict.get? ([("a", (0, 0)), ("b", (10, 0))] : Dict String (ℚ × ℚ)) "a" = some (0, 0) := by decide +kernel
  have e2 : Dict.get? ([("a", (0, 0)), ("b", (10, 0))] : Dict String (ℚ × ℚ)) "b" = some (10, 0) := by decide +kernel
  rw [e1] at hS
  rw [e2] at hE
  refine ⟨ar, har, ?_, ?_, ?_⟩
  · rw [hf.start]; exact (Option.some.inj hS).symm
  · rw [hf.stop]; exact (Option.some.inj hE).symm
  · rw [ht]; decide +kernel

example : Viewer.timeIndex (some 0) (some 30) 4 = .ok [0, 10, 20, 30] := by decide +kernel

/-! ### The theorems applied to concrete cases -/

example := C94_scn_partial anStudy_built anResult_mirrors anAnalyzer_init anLoad ⟨⟨by simp, by simp⟩, by simp⟩
  (net := anNet "elec") (anNet_mem "elec" (by decide +kernel)) (k := 1) (by decide +kernel) (by decide +kernel)

example := C94_converter_partial anStudy_built anResult_mirrors anAnalyzer_init anLoad ⟨⟨by simp, by simp⟩, by simp⟩
  (net := anNet "elec") (anNet_mem "elec" (by decide +kernel)) (t := 1) (by decide +kernel) (by decide +kernel)

end Hadar.Props
