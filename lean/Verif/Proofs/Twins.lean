import Verif.Spec.Twins
import Verif.Proofs.Rename
import Verif.Proofs.Order
import Verif.Proofs.Blend
import Verif.Proofs.Margin

/-!
# Dispatches at twin places
-/

namespace Hadar

open Spec

variable {ρ : Names} {s : Study} {k : ℕ} {D D' : Dispatch}

/-- the dispatch that does at a place what `D` does at the twin place -/
def twinOf (ρ : Names) (s : Study) (D : Dispatch) : Dispatch := ρ.dispatch (moved s (ρ.study s) D)

theorem twinOf_feasible (h : ρ.Ok) (ha : SelfAlike ρ s) (hb : Built s) (hD : Spec.Feasible s k D) :
    Spec.Feasible s k (twinOf ρ s D) :=
  (feasible_rename h).mp (moved_feasible ha (Built.inv hb) (Built.inv (built_rename h hb)) hD)

theorem twinOf_cost (h : ρ.Ok) (ha : SelfAlike ρ s) (hb : Built s) : cost s k (twinOf ρ s D) = cost s k D := by
  unfold twinOf
  rw [← cost_rename]
  exact moved_cost ha (Built.inv hb) (Built.inv (built_rename h hb))

theorem posIn_twin {α κ : Type} [DecidableEq α] {l l' : List α} {key : α → κ} (hn : (l.map key).Nodup) {i j : ℕ} {a : α}
    (hi : l'[i]? = some a) (hj : l[j]? = some a) : posIn l l' i = j := by
  have hnd : l.Nodup := List.Nodup.of_map key hn
  simp only [posIn, hi]
  obtain ⟨hlt, rfl⟩ := List.getElem?_eq_some_iff.mp hj
  exact hnd.idxOf_getElem j hlt

theorem twinOf_flows (h : ρ.Ok) (hb : Built s) : TwinFlows ρ s D (twinOf ρ s D) := by
  have hi := Built.inv hb
  have hi' := Built.inv (built_rename h hb)
  refine ⟨?_, ?_, ?_, ?_, fun _ _ _ _ _ _ _ => rfl, fun _ _ _ _ => rfl⟩
  · intro g d n n' hn hn' i j c hc hc' t ht
    show D.lol _ _ (posIn _ _ i) t = _
    rw [inNode_eq hi hn', inNode_eq hi' (hasNode_rename hn), posIn_twin (hi.names.consumptions _ _ _ hn') _ hc']
    simp [Names.inNode, hc]
  · intro g d n n' hn hn' i j c hc hc' t ht
    show D.prod _ _ (posIn _ _ i) t = _
    rw [inNode_eq hi hn', inNode_eq hi' (hasNode_rename hn), posIn_twin (hi.names.productions _ _ _ hn') _ hc']
    simp [Names.inNode, hc]
  · intro g d n n' hn hn' i j c hc hc' t ht
    have e : posIn (inNode s (ρ.net g) (ρ.node d)).storages (inNode (ρ.study s) (ρ.net g) (ρ.node d)).storages i = j := by
      rw [inNode_eq hi hn', inNode_eq hi' (hasNode_rename hn), posIn_twin (hi.names.storages _ _ _ hn') _ hc']
      simp [Names.inNode, hc]
    refine ⟨?_, ?_, ?_⟩
    · show D.cap _ _ (posIn _ _ i) t = _
      rw [e]
    · show D.fin _ _ (posIn _ _ i) t = _
      rw [e]
    · show D.fout _ _ (posIn _ _ i) t = _
      rw [e]
  · intro g d n n' hn hn' i j c hc hc' t ht
    show D.link _ _ (posIn _ _ i) t = _
    rw [inNode_eq hi hn', inNode_eq hi' (hasNode_rename hn), posIn_twin (hi.names.links _ _ _ hn') _ hc']
    simp [Names.inNode, hc]

theorem sameShape_refl (s : Study) (k : ℕ) : SameShape s k s k where
  horizon := rfl
  networks := List.forall₂_same.mpr fun p _ => ⟨rfl, List.forall₂_same.mpr fun q _ => ⟨rfl,
    ⟨List.forall₂_same.mpr fun _ _ => ⟨fun _ _ => rfl, fun _ _ => trivial⟩,
     List.forall₂_same.mpr fun _ _ => ⟨fun _ _ => rfl, fun _ _ => trivial⟩,
     List.forall₂_same.mpr fun _ _ => ⟨fun _ _ => trivial, fun _ _ => trivial, fun _ _ => trivial, fun _ _ => rfl, trivial, fun _ _ => rfl⟩,
     List.forall₂_same.mpr fun _ _ => ⟨rfl, fun _ _ => rfl, fun _ _ => trivial⟩⟩⟩⟩
  converters := List.forall₂_same.mpr fun p _ => ⟨rfl, ⟨List.forall₂_same.mpr fun _ _ => ⟨rfl, fun _ _ => rfl⟩, rfl, rfl,
    fun _ _ => rfl, fun _ _ => trivial⟩⟩

theorem half_bound {a b z : ℚ} (h₁ : 0 ≤ a ∧ a ≤ z) (h₂ : 0 ≤ b ∧ b ≤ z) : 0 ≤ 1 / 2 * a + 1 / 2 * b ∧ 1 / 2 * a + 1 / 2 * b ≤ z :=
  ⟨by linarith [h₁.1, h₂.1], by linarith [h₁.2, h₂.2]⟩

/-- half of a dispatch and half of another one -/
theorem half_feasible (hD : Spec.Feasible s k D) (hD' : Spec.Feasible s k D') : Spec.Feasible s k (D.blend (1 / 2) (1 / 2) D') := by
  have hrefl := sameShape_refl s k
  have hI : ∀ {α : Type} (l : List α) (f f' : α → ℕ → ℚ),
      (sumI l fun a i => 1 / 2 * f a i + 1 / 2 * f' a i) = 1 / 2 * sumI l f + 1 / 2 * sumI l f' := by
    intro α l f f'
    rw [← sumI_mul, ← sumI_mul, ← sumI_add]
  refine ⟨⟨?_, ?_, ?_, ?_, ?_, ?_⟩, ?_, ?_, ?_⟩
  · exact fun g d n hn i c hc t ht => half_bound (hD.bounds.consumptions g d n hn i c hc t ht) (hD'.bounds.consumptions g d n hn i c hc t ht)
  · exact fun g d n hn i c hc t ht => half_bound (hD.bounds.productions g d n hn i c hc t ht) (hD'.bounds.productions g d n hn i c hc t ht)
  · intro g d n hn i c hc t ht
    obtain ⟨a1, a2, a3⟩ := hD.bounds.storages g d n hn i c hc t ht
    obtain ⟨b1, b2, b3⟩ := hD'.bounds.storages g d n hn i c hc t ht
    exact ⟨half_bound a1 b1, half_bound a2 b2, half_bound a3 b3⟩
  · exact fun g d n hn i c hc t ht => half_bound (hD.bounds.links g d n hn i c hc t ht) (hD'.bounds.links g d n hn i c hc t ht)
  · intro p hp g d r hq t ht
    obtain ⟨a1, a2⟩ := hD.bounds.convSrc p hp g d r hq t ht
    obtain ⟨b1, b2⟩ := hD'.bounds.convSrc p hp g d r hq t ht
    simp only [Dispatch.blend]
    exact ⟨by linarith, fun hz => by linarith [a2 hz, b2 hz]⟩
  · exact fun p hp t ht => half_bound (hD.bounds.convDest p hp t ht) (hD'.bounds.convDest p hp t ht)
  · intro g d n hn t ht
    have e1 := hD.balanced g d n hn t ht
    have e2 := hD'.balanced g d n hn t ht
    unfold incoming outgoing at e1 e2 ⊢
    rw [imports_blend hrefl hrefl, from_blend hrefl hrefl, to_blend hrefl hrefl]
    have e3 : (sumI n.consumptions fun c i => val c.quantity k t - (D.blend (1 / 2) (1 / 2) D').lol g d i t) =
        1 / 2 * (sumI n.consumptions fun c i => val c.quantity k t - D.lol g d i t) +
          1 / 2 * sumI n.consumptions fun c i => val c.quantity k t - D'.lol g d i t := by
      rw [← hI]
      congr 1
      funext c i
      simp only [Dispatch.blend]
      ring
    rw [e3]
    simp only [Dispatch.blend, hI]
    linarith
  · intro g d n hn i c hc t ht
    have e1 := hD.storages g d n hn i c hc t ht
    have e2 := hD'.storages g d n hn i c hc t ht
    unfold Evolves at e1 e2 ⊢
    cases t with
    | zero => simp only [levelBefore, Dispatch.blend] at e1 e2 ⊢; rw [e1, e2]; ring
    | succ t => simp only [levelBefore, Dispatch.blend] at e1 e2 ⊢; rw [e1, e2]; ring
  · intro p hp g d r hq t ht
    have e1 := hD.ratios p hp g d r hq t ht
    have e2 := hD'.ratios p hp g d r hq t ht
    simp only [Dispatch.blend]
    rw [← e1, ← e2]
    ring

/-- half of a dispatch and half of its twin do the same at twin places -/
theorem half_even (h : ρ.Ok) (hp : ρ.Pairs) (hb : Built s) :
    EvenHanded ρ s (D.blend (1 / 2) (1 / 2) (twinOf ρ s D)) := by
  have hf := twinOf_flows (D := D) h hb
  have hback : ∀ {g d n}, HasNode s g d n → HasNode s (ρ.net (ρ.net g)) (ρ.node (ρ.node d)) n := by
    intro g d n hn
    rw [hp.net, hp.node]
    exact hn
  refine ⟨?_, ?_, ?_, ?_, ?_, ?_⟩
  · intro g d n n' hn hn' i j c hc hc' t ht
    have e1 := hf.consumptions g d n n' hn hn' i j c hc hc' t ht
    have e2 := hf.consumptions _ _ n' n hn' (hback hn) j i _ hc' (by rw [hc, hp.elem]) t ht
    rw [hp.net, hp.node] at e2
    simp only [Dispatch.blend]
    rw [e1, e2]
    ring
  · intro g d n n' hn hn' i j c hc hc' t ht
    have e1 := hf.productions g d n n' hn hn' i j c hc hc' t ht
    have e2 := hf.productions _ _ n' n hn' (hback hn) j i _ hc' (by rw [hc, hp.elem]) t ht
    rw [hp.net, hp.node] at e2
    simp only [Dispatch.blend]
    rw [e1, e2]
    ring
  · intro g d n n' hn hn' i j c hc hc' t ht
    obtain ⟨e1, e2, e3⟩ := hf.storages g d n n' hn hn' i j c hc hc' t ht
    have e := hf.storages _ _ n' n hn' (hback hn) j i _ hc' (by rw [hc, hp.elem]) t ht
    rw [hp.net, hp.node] at e
    obtain ⟨e4, e5, e6⟩ := e
    simp only [Dispatch.blend]
    rw [e1, e2, e3, e4, e5, e6]
    refine ⟨?_, ?_, ?_⟩ <;> ring
  · intro g d n n' hn hn' i j c hc hc' t ht
    have e1 := hf.links g d n n' hn hn' i j c hc hc' t ht
    have e2 := hf.links _ _ n' n hn' (hback hn) j i _ hc' (by rw [hc, hp.node]) t ht
    rw [hp.net, hp.node] at e2
    simp only [Dispatch.blend]
    rw [e1, e2]
    ring
  · intro p hpm g d hgd t ht
    have e : ∀ c, (twinOf ρ s D).convSrc c = fun q t => D.convSrc (ρ.conv c) (ρ.net q.1, ρ.node q.2) t := fun _ => rfl
    simp only [Dispatch.blend, e, hp.net, hp.node, hp.conv]
    ring
  · intro p hpm t ht
    have e : ∀ c, (twinOf ρ s D).convDest c = fun t => D.convDest (ρ.conv c) t := fun _ => rfl
    simp only [Dispatch.blend, e, hp.conv]
    ring

end Hadar
