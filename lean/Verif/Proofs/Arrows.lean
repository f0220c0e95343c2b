import Verif.Spec.Arrows
import Verif.Props.ViewerMap

/-!
# Proofs about the arrows of exchange maps
-/

namespace Hadar.Props

open Hadar Hadar.Spec

variable {s : Study} {r : Result}

/-- arrows, as a sum over pairs of nodes of what flows on the whole from the one to the other -/
theorem arrows_sum {g : String} {f : String → String → ℚ} {arrows : Dict (Cell × Cell) ℚ} (h : ArrowsOf s g f arrows)
    {names : List String} (hn : names.Nodup) (hl : ∀ x y, Linked s g x y → x ∈ names ∧ y ∈ names)
    (h0 : ∀ x y, ¬ Linked s g x y → f x y = 0) (W : Cell → Cell → ℚ) :
    (sumL arrows fun p => W p.1.1 p.1.2 * p.2) =
      sumL names fun x => sumL names fun y => W (.str x) (.str y) * max 0 (f x y - f y x) := by
  have hnd : (names.map id).Nodup := by simpa using hn
  have e1 : (sumL arrows fun p => W p.1.1 p.1.2 * p.2) = sumL arrows fun p => sumL names fun x => sumL names fun y =>
      if (Cell.str x, Cell.str y) = p.1 then W (.str x) (.str y) * (f x y - f y x) else 0 := by
    refine sumL_congr fun p hp => ?_
    obtain ⟨x, y, hxy, hlk, hv, _⟩ := h.drawn p hp
    have hx : x ∈ names ∧ y ∈ names := by
      rcases hlk with hlk | hlk
      · exact hl x y hlk
      · exact (hl y x hlk).symm
    have e2 : ∀ x', (sumL names fun y' => if (Cell.str x', Cell.str y') = p.1 then W (.str x') (.str y') * (f x' y' - f y' x') else 0) =
        if x = x' then W (.str x) (.str y) * (f x y - f y x) else 0 := by
      intro x'
      by_cases hx' : x = x'
      · subst hx'
        rw [if_pos rfl, ← sumL_pick hnd (x := y) (by simpa using hx.2) (W (.str x) (.str y) * (f x y - f y x))]
        refine sumL_congr fun y' _ => ?_
        rw [hxy]
        by_cases hy : y = y'
        · subst hy; simp
        · have : ¬ y' = y := fun e => hy e.symm
          simp [hy, this]
      · rw [if_neg hx']
        refine sumL_eq_zero fun y' _ => ?_
        rw [hxy, if_neg]
        intro e
        simp only [Prod.mk.injEq, Cell.str.injEq] at e
        exact hx' e.1.symm
    rw [sumL_congr fun x' _ => e2 x']
    have := sumL_pick hnd (x := x) (by simpa using hx.1) (W (.str x) (.str y) * (f x y - f y x))
    simp only [id] at this
    rw [this, hxy, hv]
  rw [e1, sumL_swap]
  refine sumL_congr fun x _ => ?_
  rw [sumL_swap]
  refine sumL_congr fun y _ => ?_
  by_cases hm : (Cell.str x, Cell.str y) ∈ arrows.map Prod.fst
  · rw [sumL_pick h.once hm]
    obtain ⟨p, hp, hpe⟩ := List.mem_map.mp hm
    obtain ⟨x', y', hxy, _, hv, hpos⟩ := h.drawn p hp
    rw [hpe] at hxy
    simp only [Prod.mk.injEq, Cell.str.injEq] at hxy
    obtain ⟨rfl, rfl⟩ := hxy
    rw [max_eq_right (hv ▸ hpos)]
  · have e3 : (sumL arrows fun p => if (Cell.str x, Cell.str y) = p.1 then W (.str x) (.str y) * (f x y - f y x) else 0) = 0 := by
      refine sumL_eq_zero fun p hp => ?_
      rw [if_neg]
      intro e
      exact hm (e ▸ List.mem_map_of_mem hp)
    rw [e3, max_eq_left, mul_zero]
    by_contra hlt
    have hlt : f y x < f x y := by linarith [not_le.mp hlt]
    by_cases l1 : Linked s g x y
    · exact hm ((h.all x y l1).1 hlt.le)
    · by_cases l2 : Linked s g y x
      · exact hm ((h.all y x l2).2 hlt)
      · rw [h0 x y l1, h0 y x l2] at hlt
        exact lt_irrefl _ hlt

/-- what a node sends less what it gets is its balance -/
theorem balance_flows (hb : Built s) {g : String} {net : InputNetwork} (hg : (g, net) ∈ s.networks) {d : String} {n : InputNode}
    (hd : (d, n) ∈ net.nodes) (k t : ℕ) :
    (sumL (net.nodes.map Prod.fst) fun y => flowBetween s r k g d y t - flowBetween s r k g y d t) = balanceOf s r g d n k t := by
  have hi := Built.inv hb
  rw [sumL_sub]
  unfold balanceOf
  congr 1
  · simp only [flowBetween, inNode_eq hi ⟨net, hg, hd⟩, sumI_eq]
    rw [sumL_swap]
    refine sumL_congr fun l hl => ?_
    have hnd : ((net.nodes.map Prod.fst).map id).Nodup := by simpa using hi.names.nodes (g, net) hg
    have := sumL_pick hnd (x := l.1.dest) (by
      simpa using hi.links g net hg d n hd l.1 (List.fst_mem_of_mem_zipIdx hl)) ((dispatchOf s r k).link g d l.2 t)
    simpa only [id] using this
  · unfold imports
    have hf : s.networks.filter (fun p => decide (p.1 = g)) = [(g, net)] := by
      have e := flatMap_single (f := fun p : String × InputNetwork => if p.1 = g then [p] else [])
        Prod.fst hi.names.networks hg fun b _ hb => if_neg hb
      rw [if_pos rfl] at e
      rw [← e]
      clear e
      induction s.networks with
      | nil => rfl
      | cons q l ih => rw [List.filter_cons, List.flatMap_cons, ih]; split_ifs <;> simp_all
    rw [hf]
    have e1 : ∀ F : String × InputNetwork → ℚ, sumL [(g, net)] F = F (g, net) := fun F => by simp [sumL]
    rw [e1, sumL_map]
    refine sumL_congr fun q hq => ?_
    simp only [flowBetween, inNode_eq hi ⟨net, hg, hq⟩]

end Hadar.Props
