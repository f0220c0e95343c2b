import Verif.Proofs.ViewerMap
import Verif.Props.ViewerStack

/-! # C61: exchange maps -/

namespace Hadar.Props

open Hadar Hadar.Spec

variable {junk : Junk} {s : Study} {r : Result} {a : Analyzer}

theorem flowBetween_link (hb : Built s) {g d : String} {n : InputNode} {i : ℕ} {c : Link} (hn : HasNode s g d n)
    (hc : n.links[i]? = some c) (k t : ℕ) :
    flowBetween s r k g d c.dest t = (dispatchOf s r k).link g d i t := by
  have hi := Built.inv hb
  unfold flowBetween
  rw [inNode_eq hi hn, sumI_eq]
  have hnd : (n.links.zipIdx.map Prod.snd).Nodup := by
    rw [List.zipIdx_map_snd]
    exact List.nodup_range'
  rw [← sumL_pick hnd (x := i) (List.mem_map.mpr ⟨(c, i), by rw [List.mem_zipIdx_iff_getElem?]; exact hc, rfl⟩)
    ((dispatchOf s r k).link g d i t)]
  refine sumL_congr ?_
  rintro ⟨c', j⟩ hj
  rw [List.mem_zipIdx_iff_getElem?] at hj
  simp only at hj ⊢
  by_cases hij : i = j
  · subst hij
    rw [hc] at hj
    cases hj
    simp
  · rw [if_neg hij, if_neg]
    intro hd
    have hnl := hi.names.links g d n hn
    apply hij
    have h1 : (n.links.map (·.dest))[i]? = some c.dest := by rw [List.getElem?_map, hc]; rfl
    have h2 : (n.links.map (·.dest))[j]? = some c'.dest := by rw [List.getElem?_map, hj]; rfl
    have h3 : i < (n.links.map (·.dest)).length := by
      by_contra h; rw [List.getElem?_eq_none (by omega)] at h1; cases h1
    exact (List.getElem?_inj h3 hnl).mp (by rw [h1, h2, hd])

theorem flowBetween_none (hb : Built s) {g d d' : String} (h : ¬ Linked s g d d') (k t : ℕ) :
    flowBetween s r k g d d' t = 0 := by
  have hi := Built.inv hb
  unfold flowBetween
  rw [sumI_eq]
  refine sumL_eq_zero ?_
  rintro ⟨c, i⟩ hc
  rw [List.mem_zipIdx_iff_getElem?] at hc
  rw [if_neg]
  intro hd
  have hm := List.mem_of_getElem? hc
  apply h
  unfold inNode at hm
  cases hg : s.networks.get? g with
  | none => rw [hg] at hm; cases hm
  | some net =>
    cases hn : net.nodes.get? d with
    | none => rw [hg] at hm; simp [hn] at hm
    | some n =>
      rw [hg] at hm
      simp only [Option.bind_some, hn, Option.getD_some] at hm
      exact ⟨n, hasNode_of_get? hg hn, List.mem_map.mpr ⟨c, hm, hd⟩⟩

theorem of_mem_elements {α : Type} {sel : InputNode → List α} {g d : String} {i : ℕ} {c : α}
    (h : (g, d, i, c) ∈ elements s sel) : ∃ n, HasNode s g d n ∧ (sel n)[i]? = some c := by
  simp only [elements, List.mem_flatMap, List.mem_map] at h
  obtain ⟨⟨g', net⟩, hg, ⟨d', n⟩, hd, ⟨c', i'⟩, hc, he⟩ := h
  cases he
  rw [List.mem_zipIdx_iff_getElem?] at hc
  exact ⟨n, ⟨net, hg, hd⟩, hc⟩

/-- the nodes of a network, as the analyzer names them -/
theorem nodes_ok (hb : Built s) (hm : Mirrors s r) (ha : Analyzer.init junk s r = .ok a) {g : String}
    {net : InputNetwork} (hg : (g, net) ∈ s.networks) : a.nodes g = .ok (net.nodes.map Prod.fst) := by
  have hi := Built.inv hb
  obtain ⟨q, hq, h1, h2⟩ := Forall₂.exists_left hm.networks hg
  have hkeys : (r.networks.map Prod.fst).Nodup := by
    have : r.networks.map Prod.fst = s.networks.map Prod.fst := by
      have := hm.networks
      generalize s.networks = l at this
      generalize r.networks = m at this
      induction this with
      | nil => rfl
      | cons h _ ih => rw [List.map_cons, List.map_cons, ih, h.1]
    rw [this]; exact hi.names.networks
  have hget : r.networks.get? g = some q.2 := Dict.get?_of_mem hkeys (by
    have : (g, q.2) = q := Prod.ext h1 rfl
    rw [this]; exact hq)
  unfold Analyzer.nodes
  rw [(init_ok ha).2.1, Dict.getE_of_get? hget]
  simp only [bind, Except.bind, pure, Except.pure, Except.ok.injEq]
  clear hget hq hkeys
  simp only at h2
  unfold Dict.keys
  generalize net.nodes = l at h2
  generalize q.2.nodes = m at h2
  induction h2 with
  | nil => rfl
  | cons h _ ih => rw [List.map_cons, List.map_cons, ih, h.1]

open Classical in
/-- C61: on the map of a network, nodes have their balances, arrows show the net flows between linked nodes, and
without a colour limit given the limit is the highest absolute balance. The coordinates of the nodes must be
given. -/
theorem C61 (hb : Built s) (hm : Mirrors s r) (ha : Analyzer.init junk s r = .ok a) {g : String}
    {net : InputNetwork} (hg : (g, net) ∈ s.networks) (h0 : net.nodes ≠ []) {coord : Dict String (ℚ × ℚ)}
    (hco : ∀ p ∈ net.nodes, ∃ q, Dict.get? coord p.1 = some q) {k t : ℕ} (hk : k < s.nbScn) (ht : t < s.horizon)
    (limit : Option ℚ) :
    ∃ chart, Viewer.map a (some coord) g (t : ℤ) (k : ℤ) limit = .ok chart ∧
      chart.nodes = net.nodes.map (fun p => (p.1, balanceOf s r g p.1 p.2 k t)) ∧
      ArrowsOf s g (fun x y => flowBetween s r k g x y t) chart.arrows ∧
      (∀ l, limit = some l → chart.limit = l) ∧
      (limit = none → IsPeak (net.nodes.map fun p => balanceOf s r g p.1 p.2 k t) chart.limit) := by
  have hi := Built.inv hb
  have hn : ∀ p ∈ net.nodes, HasNode s g p.1 p.2 := fun p hp => ⟨net, hg, hp⟩
  -- balances
  have hbal : (net.nodes.map Prod.fst).mapM (fun d => do
      let b ← a.getBalance d g
      let q ← b.get2 (k : ℤ) (t : ℤ)
      pure (d, q)) = Except.ok (ε := PyErr) (net.nodes.map fun p => (p.1, balanceOf s r g p.1 p.2 k t)) := by
    rw [List.mapM_map]
    refine mapM_ok ?_
    intro p hp
    obtain ⟨b, e1, e2⟩ := C44 hb hm ha (hn p hp)
    have e3 : b.get2 (k : ℤ) (t : ℤ) = .ok (balanceOf s r g p.1 p.2 k t) := by
      unfold NdArray.get2
      rw [e2.1.1]
      simp only [NdArray.axisIndex_nat, if_pos hk, if_pos ht, bind, Except.bind]
      rw [cell_full e2.1 hk ht, e2.2 k hk t ht]
      rfl
    simp only [Function.comp_apply, e1, e3, bind, Except.bind, pure, Except.pure]
  -- links
  obtain ⟨pt, hpt, hA⟩ := viewer_query hb hm ha (kind := .link) rfl (g := g) (calls :=
    [(.scn, .one (.num ((k : ℤ) : ℚ))), (.time, .one (.num ((t : ℤ) : ℚ))), (.node, .none), (.link, .none)]) (by
      simp only [List.map_cons, List.map_nil]; decide) (by simp) (by simp) ⟨by simp, by simp⟩ (by simp)
  have hp := (link_listed hb r).answer hA ⟨⟨by simp, by simp⟩, by simp⟩ (Pe := fun e => decide (e.1 = g))
    (Pp := fun p => decide (p = (k, t))) (L := [(k, t)]) (by
      intro e' k' t'
      obtain ⟨h1, h2, h3, h4, h5⟩ := (link_listed hb r).at e' k' t'
      simp only [matches_cons, matches_nil, selects_one, selects_none, column_network, column_time,
        column_scn, h1, h4, h5, decide_eq_true_eq, Cell.str.injEq, Cell.num.injEq, Prod.mk.injEq]
      constructor
      · rintro ⟨h6, h7, h8, -⟩
        exact ⟨h6, by exact_mod_cast h7, by exact_mod_cast h8⟩
      · rintro ⟨h6, h7, h8⟩
        exact ⟨h6, by exact_mod_cast h7, by exact_mod_cast h8, trivial, trivial, trivial⟩) (by
      exact filter_one (idf := fun x : ℕ × ℕ => x) (e := (k, t)) (by simpa using pairs_nodup _ _)
        (mem_pairs.mpr ⟨hk, ht⟩)) (by
      intro c
      simp only [List.map_cons, List.map_nil, keyColumns, column_network, column_node, column_time, column_scn,
        List.mem_cons, List.not_mem_nil, or_false]
      tauto)
  have hlev : pt.lines ≠ [] → pt.levels = ["node", "dest"] := by
    intro hl
    have := hA.levels_after (ones := [(.network, .one (.str g)), (.scn, .one (.num ((k : ℤ) : ℚ))),
      (.time, .one (.num ((t : ℤ) : ℚ)))]) (rest := [(.node, .none), (.link, .none)])
      (by simp only [List.mem_cons, List.not_mem_nil, or_false, forall_eq_or_imp, forall_eq]
          exact ⟨.one _, .one _, .one _⟩) (by simp) hl
    simpa [IndexKind.column] using this
  have hnode : "node" ∈ pt.levels := by
    obtain ⟨dr, kp, e1, e2, _, e4⟩ := hA.levels
    have hmem : ((.node, .none) : IndexKind × IndexArg) ∈ dr ++ kp := by rw [← e1]; simp
    rcases List.mem_append.mp hmem with h | h
    · cases e2 _ h
    · rw [e4]
      exact List.mem_map.mpr ⟨_, h, rfl⟩
  have hlines : ∀ l ∈ pt.lines, ∃ d n i c, HasNode s g d n ∧ n.links[i]? = some c ∧
      l = ([Cell.str d, Cell.str c.dest], strip .link (linkRow r (g, d, i, c) k t)) := by
    intro l hl
    have hne : pt.lines ≠ [] := by intro h; rw [h] at hl; cases hl
    rw [hp.mem_iff, hlev hne] at hl
    simp only [List.mem_flatMap, List.mem_filter, decide_eq_true_eq, List.map_cons, List.map_nil,
      List.mem_singleton] at hl
    obtain ⟨⟨g', d, i, c⟩, ⟨he, rfl⟩, rfl⟩ := hl
    obtain ⟨n, hn, hc⟩ := of_mem_elements he
    exact ⟨d, n, i, c, hn, hc, rfl⟩
  obtain ⟨srcs, arrows, hs1, hs2, a1, a2, a3⟩ := map_arrows (pt := pt)
    (P := fun x y => ∃ d d', x = Cell.str d ∧ y = Cell.str d' ∧ Linked s g d d')
    (flow := fun x y => match x, y with
      | .str d, .str d' => flowBetween s r k g d d' t
      | _, _ => 0) hlev hnode (by
      intro l hl
      obtain ⟨d, n, i, c, hn, hc, rfl⟩ := hlines l hl
      exact ⟨_, _, rfl, d, c.dest, rfl, rfl, n, hn, List.mem_map_of_mem (List.mem_of_getElem? hc)⟩) (by
      rintro _ _ ⟨d, d', rfl, rfl, n, hn, hd⟩
      obtain ⟨c, hc, rfl⟩ := List.mem_map.mp hd
      obtain ⟨i, hi⟩ := List.getElem?_of_mem hc
      have he : (g, d, i, c) ∈ elements s (·.links) := mem_elements hn hi
      have h1 : (pt.levels.map (Row.at (linkRow r (g, d, i, c) k t)), strip .link (linkRow r (g, d, i, c) k t)) ∈
          pt.lines := by
        rw [hp.mem_iff]
        simp only [List.mem_flatMap, List.mem_filter, decide_eq_true_eq, List.map_cons, List.map_nil,
          List.mem_singleton]
        exact ⟨_, ⟨he, rfl⟩, rfl⟩
      refine ⟨_, h1, ?_⟩
      have hne : pt.lines ≠ [] := by intro h; rw [h] at h1; cases h1
      rw [hlev hne]
      rfl) (by
      intro l hl x y hxy
      obtain ⟨d, n, i, c, hn, hc, rfl⟩ := hlines l hl
      simp only [List.cons.injEq, and_true] at hxy
      obtain ⟨rfl, rfl⟩ := hxy
      simp only
      rw [flowBetween_link hb hn hc]
      exact strip_value (by simp [keyColumns, IndexKind.column]) rfl _) (by
      intro x y hxy
      split
      · rename_i d d'
        exact flowBetween_none hb (fun h => hxy ⟨d, d', rfl, rfl, h⟩) k t
      · rfl)
  have hknown : ∀ p ∈ net.nodes, Dict.contains coord p.1 = true := by
    intro p hp
    obtain ⟨q, hq⟩ := hco p hp
    simp [Dict.contains, hq]
  have hends : ∀ x y, Linked s g x y → Dict.contains coord x = true ∧ Dict.contains coord y = true := by
    rintro x y ⟨n, ⟨net', hg', hx⟩, hy⟩
    have : net' = net := by
      have h1 := hi.get?_network hg
      have h2 := hi.get?_network hg'
      rw [h1] at h2
      exact (Option.some.inj h2).symm
    subst this
    obtain ⟨c, hc, rfl⟩ := List.mem_map.mp hy
    obtain ⟨p, hp, hpe⟩ := List.mem_map.mp (hi.links g net' hg' x n hx c hc)
    exact ⟨hknown _ hx, hpe ▸ hknown p hp⟩
  have hdrawn : ∀ p ∈ arrows, ∃ x y : String, p.1 = (Cell.str x, Cell.str y) ∧ (Linked s g x y ∨ Linked s g y x) ∧
      p.2 = flowBetween s r k g x y t - flowBetween s r k g y x t ∧ 0 ≤ p.2 := by
    rintro ⟨⟨x, y⟩, v⟩ hpm
    obtain ⟨b1, b2, b3⟩ := a2 _ hpm
    rcases b3 with ⟨d, d', rfl, rfl, h⟩ | ⟨d, d', rfl, rfl, h⟩
    · exact ⟨d, d', rfl, .inl h, b1, b2⟩
    · exact ⟨d', d, rfl, .inr h, b1, b2⟩
  have hmap : ∀ lim, Viewer.mapChart (some coord) (net.nodes.map fun p => (p.1, balanceOf s r g p.1 p.2 k t))
      arrows lim = .ok ⟨net.nodes.map (fun p => (p.1, balanceOf s r g p.1 p.2 k t)), arrows, lim⟩ := by
    intro lim
    unfold Viewer.mapChart
    simp only
    rw [if_pos, if_pos, if_neg (by simpa using h0)]
    · rw [List.all_eq_true]
      intro p hpm
      obtain ⟨x, y, e, hl, _⟩ := hdrawn p hpm
      rw [e]
      rcases hl with hl | hl
      · simp [hends _ _ hl]
      · simp [hends _ _ hl]
    · rw [List.all_eq_true]
      intro p hpm
      obtain ⟨q, hq, rfl⟩ := List.mem_map.mp hpm
      exact hknown q hq
  have hArr : ArrowsOf s g (fun x y => flowBetween s r k g x y t) arrows := by
    refine ⟨a1, hdrawn, ?_⟩
    intro x y hxy
    have := a3 (.str x) (.str y) ⟨x, y, rfl, rfl, hxy⟩
    simp only at this
    constructor
    · intro h
      rw [if_pos (by linarith)] at this
      exact this
    · intro h
      rw [if_neg (by linarith)] at this
      exact this
  unfold Viewer.map Viewer.mapWith
  rw [nodes_ok hb hm ha hg]
  simp only [bind, Except.bind, pure, Except.pure] at hbal hs2 ⊢
  rw [hbal]
  cases limit with
  | some l =>
    simp only [hpt, hs1, hs2, hmap]
    exact ⟨_, rfl, rfl, hArr, by simp, by simp⟩
  | none =>
    have hne : (net.nodes.map fun p => (p.1, balanceOf s r g p.1 p.2 k t)).map Prod.snd ≠ [] := by simpa using h0
    have hvals : (net.nodes.map fun p => (p.1, balanceOf s r g p.1 p.2 k t)).map Prod.snd =
      net.nodes.map fun p => balanceOf s r g p.1 p.2 k t := by rw [List.map_map]; rfl
    obtain ⟨hi', m1, m2, m3⟩ := pyMax_ok hne
    obtain ⟨lo, l1, l2, l3⟩ := pyMin_ok hne
    simp only [m1, l1, hpt, hs1, hs2, hmap]
    refine ⟨_, rfl, rfl, hArr, by simp, fun _ => ?_⟩
    rw [hvals] at m2 m3 l2 l3
    constructor
    · intro v hv
      rw [abs_le]
      have h1 := m3 v hv
      have h2 := l3 v hv
      constructor
      · have := le_max_right hi' (-lo); simp only; linarith
      · exact h1.trans (le_max_left _ _)
    · rcases le_total hi' (-lo) with h | h
      · refine ⟨lo, l2, ?_⟩
        rw [max_eq_right h, abs_of_nonpos]
        have := m3 lo l2
        linarith
      · refine ⟨hi', m2, ?_⟩
        rw [max_eq_left h, abs_of_nonneg]
        have := l3 hi' m2
        linarith

/-- C61: without coordinates there is no map -/
theorem C61_no_coordinates (a : Analyzer) (g : String) (t k : ℤ) (limit : Option ℚ) :
    ∃ e, Viewer.map a none g t k limit = .error e := by
  unfold Viewer.map Viewer.mapWith Viewer.mapChart
  simp only [bind, Except.bind]
  repeat' split
  all_goals exact ⟨_, rfl⟩

/-- one arrow from `a` to `b` for an export of 3 -/
example : ∃ chart, Viewer.map anAnalyzer (some [("a", (0, 0)), ("b", (1, 1))]) "elec" (1 : ℕ) (1 : ℕ) none = .ok chart ∧
    chart.nodes = [("a", 3), ("b", -3)] ∧
    (Cell.str "a", Cell.str "b") ∈ chart.arrows.map Prod.fst ∧ chart.limit = 3 := by
  have hnet : (anNet "elec").nodes.map Prod.fst = ["a", "b"] := by decide +kernel
  obtain ⟨chart, h1, h2, h3, _, h5⟩ := C61 anStudy_built anResult_mirrors anAnalyzer_init
    (anNet_mem "elec" (by decide +kernel)) (by decide +kernel) (coord := [("a", (0, 0)), ("b", (1, 1))]) (by
      intro p hp
      have : p.1 ∈ ["a", "b"] := hnet ▸ List.mem_map_of_mem hp
      simp only [List.mem_cons, List.not_mem_nil, or_false] at this
      rcases this with h | h <;> rw [h] <;> exact ⟨_, rfl⟩) (k := 1) (t := 1) (by decide +kernel)
    (by decide +kernel) none
  have hbal : (anNet "elec").nodes.map (fun p => (p.1, balanceOf anStudy anResult "elec" p.1 p.2 1 1)) =
      [("a", 3), ("b", -3)] := by decide +kernel
  refine ⟨chart, h1, h2.trans hbal, ?_, ?_⟩
  · exact (h3.all "a" "b" ⟨_, hasNode_inNode (by decide +kernel), by decide +kernel⟩).1 (by decide +kernel)
  · have hv : (anNet "elec").nodes.map (fun p => balanceOf anStudy anResult "elec" p.1 p.2 1 1) = [3, -3] := by
      decide +kernel
    obtain ⟨_, v, hv1, hv2⟩ := h5 rfl
    rw [hv] at hv1
    simp only [List.mem_cons, List.not_mem_nil, or_false] at hv1
    rw [← hv2]
    rcases hv1 with rfl | rfl <;> decide +kernel

end Hadar.Props
