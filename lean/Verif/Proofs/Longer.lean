import Verif.Spec.Longer
import Verif.Proofs.Sensitivity
import Verif.Proofs.Prices
import Verif.Proofs.Window
import Verif.Proofs.Cut

/-! # Helper lemmas on studies with longer time steps -/

namespace Hadar

open Spec

variable {start : ℕ → ℕ} {s s' : Study} {k k' : ℕ} {D : Dispatch}

theorem Spec.Cutting.mono {h h' : ℕ} (hc : Cutting start h h') {τ : ℕ} (hτ : τ ≤ h') : start τ ≤ h := by
  have : ∀ m, m ≤ h' → start (h' - m) ≤ h := by
    intro m
    induction m with
    | zero => intro _; rw [Nat.sub_zero, hc.last]
    | succ m ih =>
      intro hm
      have h1 := ih (by omega)
      have h2 := hc.step (h' - (m + 1)) (by omega)
      rw [show h' - (m + 1) + 1 = h' - m by omega] at h2
      omega
  have := this (h' - τ) (by omega)
  rwa [show h' - (h' - τ) = τ by omega] at this

theorem Spec.Cutting.lt {h h' : ℕ} (hc : Cutting start h h') {τ : ℕ} (hτ : τ < h') {t : ℕ} (ht : t ∈ stepsOf start τ) : t < h := by
  have h1 := hc.step τ hτ
  have h2 := hc.mono (τ := τ + 1) hτ
  simp only [stepsOf, List.mem_range'_1] at ht
  omega

theorem Spec.Cutting.end_mem {h h' : ℕ} (hc : Cutting start h h') {τ : ℕ} (hτ : τ < h') : endOf start τ ∈ stepsOf start τ := by
  have h1 := hc.step τ hτ
  simp only [stepsOf, endOf, List.mem_range'_1]
  omega

/-- all time steps, one long step after the other -/
theorem Spec.Cutting.sum {h h' : ℕ} (hc : Cutting start h h') (f : ℕ → ℚ) :
    sumL (List.range h) f = sumL (List.range h') fun τ => sumL (stepsOf start τ) f := by
  have key : ∀ n ≤ h', sumL (List.range (start n)) f = sumL (List.range n) fun τ => sumL (stepsOf start τ) f := by
    intro n
    induction n with
    | zero => intro _; rw [hc.first]; rfl
    | succ n ih =>
      intro hn
      have h1 := hc.step n (by omega)
      have e : List.range (start (n + 1)) = List.range (start n) ++ stepsOf start n := by
        have := List.range'_append_1 (s := 0) (m := start n) (n := start (n + 1) - start n)
        rw [Nat.zero_add, show start n + (start (n + 1) - start n) = start (n + 1) by omega] at this
        rw [List.range_eq_range', List.range_eq_range']
        exact this.symm
      rw [e, List.range_succ]
      simp only [sumL, List.map_append, List.sum_append, List.map_cons, List.map_nil, List.sum_cons, List.sum_nil, add_zero] at ih ⊢
      rw [ih (by omega)]
  rw [← hc.last]
  exact key h' (le_refl _)

theorem sumL_sumI {α β : Type} (r : List β) (l : List α) (f : α → ℕ → β → ℚ) :
    (sumI l fun a i => sumL r fun t => f a i t) = sumL r fun t => sumI l fun a i => f a i t := by
  simp only [sumI_eq]
  exact sumL_swap _ _ _

theorem sumL_ite {β : Type} (p : Prop) [Decidable p] (r : List β) (f : β → ℚ) :
    (if p then sumL r f else 0) = sumL r fun t => if p then f t else 0 := by
  split_ifs
  · rfl
  · rw [sumL_zero]

theorem over_imports (s : Study) (D : Dispatch) (g d : String) (τ : ℕ) :
    imports s (D.over start) g d τ = sumL (stepsOf start τ) fun t => imports s D g d t := by
  unfold imports
  simp only [Dispatch.over, sumL_ite, sumL_sumI]
  rw [← sumL_swap]
  refine sumL_congr fun p _ => ?_
  rw [← sumL_swap]

theorem over_from (s : Study) (D : Dispatch) (g d : String) (τ : ℕ) :
    fromConverters s (D.over start) g d τ = sumL (stepsOf start τ) fun t => fromConverters s D g d t := by
  unfold fromConverters
  simp only [Dispatch.over, sumL_ite]
  rw [← sumL_swap]

theorem over_to (s : Study) (D : Dispatch) (g d : String) (τ : ℕ) :
    toConverters s (D.over start) g d τ = sumL (stepsOf start τ) fun t => toConverters s D g d t := by
  unfold toConverters
  simp only [Dispatch.over, sumL_ite]
  rw [← sumL_swap]
  refine sumL_congr fun p _ => ?_
  rw [← sumL_swap]

theorem over_incoming (s : Study) (D : Dispatch) (g d : String) (n : InputNode) (τ : ℕ) :
    incoming s (D.over start) g d n τ = sumL (stepsOf start τ) fun t => incoming s D g d n t := by
  unfold incoming
  rw [over_imports, over_from, sumL_add, sumL_add, sumL_add]
  simp only [Dispatch.over, sumL_sumI]

theorem over_self (D : Dispatch) (g d : String) (n : InputNode) (τ : ℕ) :
    selfFlow (D.over start) g d n τ = sumL (stepsOf start τ) fun t => selfFlow D g d n t := by
  unfold selfFlow
  simp only [Dispatch.over, sumL_ite, sumL_sumI]

/-- the level after some time steps -/
theorem level_after {g d : String} {i : ℕ} {c : Storage} {a : ℕ} (m : ℕ) (h : ∀ t, a ≤ t → t < a + m → Evolves k D g d i c t) :
    levelBefore D g d i c.initCapacity (a + m) = levelBefore D g d i c.initCapacity a +
      sumL (List.range' a m) fun t => val c.eff k t * D.fin g d i t - D.fout g d i t := by
  induction m with
  | zero => simp [sumL]
  | succ m ih =>
    have h1 := h (a + m) (by omega) (by omega)
    unfold Evolves at h1
    rw [show a + (m + 1) = a + m + 1 from rfl, List.range'_1_concat]
    show D.cap g d i (a + m) = _
    rw [h1, ih fun t h2 h3 => h t h2 (by omega)]
    simp only [sumL, List.map_append, List.sum_append, List.map_cons, List.map_nil, List.sum_cons, List.sum_nil, add_zero]
    ring

namespace Longer

variable (h : Longer start s k s' k')
include h

theorem alike : Alike (fun _ _ => LongerNode start s'.horizon k k') (fun _ => LongerConverter start s'.horizon k k') s
    { s' with horizon := s.horizon } := ⟨rfl, h.networks, h.converters⟩

theorem node {g d : String} {n' : InputNode} (hn : HasNode s' g d n') :
    ∃ n, HasNode s g d n ∧ LongerNode start s'.horizon k k' n n' := Alike.node (alike h) hn

theorem imports_eq (D : Dispatch) (g d : String) (t : ℕ) : imports s' D g d t = imports s D g d t := by
  have := imports_alike (D := D) (b := 1) (alike h) (fun _ _ n n' h => h.links.imp fun _ _ h => h.1) g d t
  rw [Dispatch.scale_one, one_mul] at this
  exact this

theorem from_eq (D : Dispatch) (g d : String) (t : ℕ) : fromConverters s' D g d t = fromConverters s D g d t := by
  have := fromConverters_alike (D := D) (b := 1) (alike h) (fun _ c c' h => ⟨h.destNetwork, h.destNode⟩) g d t
  rw [Dispatch.scale_one, one_mul] at this
  exact this

theorem to_eq (D : Dispatch) (g d : String) (t : ℕ) : toConverters s' D g d t = toConverters s D g d t := by
  have := toConverters_alike (D := D) (b := 1) (alike h) (fun _ c c' h => h.sources.imp fun _ _ h => h.1) g d t
  rw [Dispatch.scale_one, one_mul] at this
  exact this

theorem bounds (hb : Bounds s k D) : Bounds s' k' (D.over start) := by
  have hlt : ∀ τ < s'.horizon, ∀ t ∈ stepsOf start τ, t < s.horizon := fun τ hτ t ht => h.cutting.lt hτ ht
  refine ⟨?_, ?_, ?_, ?_, ?_, ?_⟩
  · intro g d n' hn' i b hb' τ hτ
    obtain ⟨n, hn, hN⟩ := node h hn'
    obtain ⟨a, ha, _, hq⟩ := forall₂_get_right hN.consumptions hb'
    have hx := fun t ht => hb.consumptions g d n hn i a ha t (hlt τ hτ t ht)
    exact ⟨sumL_nonneg_of _ _ fun t ht => (hx t ht).1, (sumL_le fun t ht => (hx t ht).2).trans (hq τ hτ).le⟩
  · intro g d n' hn' i b hb' τ hτ
    obtain ⟨n, hn, hN⟩ := node h hn'
    obtain ⟨a, ha, _, hq⟩ := forall₂_get_right hN.productions hb'
    have hx := fun t ht => hb.productions g d n hn i a ha t (hlt τ hτ t ht)
    exact ⟨sumL_nonneg_of _ _ fun t ht => (hx t ht).1, (sumL_le fun t ht => (hx t ht).2).trans (hq τ hτ)⟩
  · intro g d n' hn' i b hb' τ hτ
    obtain ⟨n, hn, hN⟩ := node h hn'
    obtain ⟨a, ha, h1, h2, h3, _⟩ := forall₂_get_right hN.storages hb'
    have hx := fun t ht => hb.storages g d n hn i a ha t (hlt τ hτ t ht)
    have he := hx _ (h.cutting.end_mem hτ)
    exact ⟨⟨he.1.1, he.1.2.trans (h1 τ hτ)⟩,
      ⟨sumL_nonneg_of _ _ fun t ht => (hx t ht).2.1.1, (sumL_le fun t ht => (hx t ht).2.1.2).trans (h2 τ hτ)⟩,
      ⟨sumL_nonneg_of _ _ fun t ht => (hx t ht).2.2.1, (sumL_le fun t ht => (hx t ht).2.2.2).trans (h3 τ hτ)⟩⟩
  · intro g d n' hn' i b hb' τ hτ
    obtain ⟨n, hn, hN⟩ := node h hn'
    obtain ⟨a, ha, _, _, hq⟩ := forall₂_get_right hN.links hb'
    have hx := fun t ht => hb.links g d n hn i a ha t (hlt τ hτ t ht)
    exact ⟨sumL_nonneg_of _ _ fun t ht => (hx t ht).1, (sumL_le fun t ht => (hx t ht).2).trans (hq τ hτ)⟩
  · intro p' hp' g d r' hr' τ hτ
    obtain ⟨p, hp, e, hC⟩ := forall₂_mem_right h.converters hp'
    obtain ⟨⟨key, r⟩, hq, e', hr⟩ := forall₂_mem_right hC.sources hr'
    dsimp only at e' hr
    subst e'
    have hx := fun t ht => hb.convSrc p hp g d r hq t (hlt τ hτ t ht)
    rw [← e]
    refine ⟨sumL_nonneg_of _ _ fun t ht => (hx t ht).1, fun hz => ?_⟩
    have e1 : fval p'.2.max k' τ / val r' k' τ = sumL (stepsOf start τ) fun t => fval p.2.max k t / val r' k' τ := by
      rw [← hC.max τ hτ]
      simp only [div_eq_mul_inv, mul_comm _ (val r' k' τ)⁻¹, sumL_mul]
    rw [e1]
    refine sumL_le fun t ht => ?_
    have h2 := (hx t ht).2
    rw [hr τ hτ t ht] at h2
    exact h2 hz
  · intro p' hp' τ hτ
    obtain ⟨p, hp, e, hC⟩ := forall₂_mem_right h.converters hp'
    have hx := fun t ht => hb.convDest p hp t (hlt τ hτ t ht)
    rw [← e, ← hC.max τ hτ]
    exact ⟨sumL_nonneg_of _ _ fun t ht => (hx t ht).1, sumL_le fun t ht => (hx t ht).2⟩

theorem incoming_eq {g d : String} {n n' : InputNode} (hN : LongerNode start s'.horizon k k' n n') (D : Dispatch) (τ : ℕ) :
    incoming s' D g d n' τ = incoming s D g d n τ := by
  unfold incoming
  rw [imports_eq h, from_eq h, sumI_rel hN.productions (g := fun _ i => D.prod g d i τ) (fun _ _ _ _ _ _ => rfl),
    sumI_rel hN.storages (g := fun _ i => D.fout g d i τ) (fun _ _ _ _ _ _ => rfl)]

theorem outgoing_eq {g d : String} {n n' : InputNode} (hN : LongerNode start s'.horizon k k' n n') {τ : ℕ} (hτ : τ < s'.horizon) :
    outgoing s' k' (D.over start) g d n' τ = sumL (stepsOf start τ) fun t => outgoing s k D g d n t := by
  unfold outgoing
  rw [to_eq h, over_to, sumL_add, sumL_add, sumL_add, ← sumL_sumI, ← sumL_sumI, ← sumL_sumI,
    sumI_rel hN.storages (f := fun _ i => (D.over start).fin g d i τ) (g := fun _ i => (D.over start).fin g d i τ)
      (fun _ _ _ _ _ _ => rfl) |>.symm,
    sumI_rel hN.links (f := fun _ i => (D.over start).link g d i τ) (g := fun _ i => (D.over start).link g d i τ)
      (fun _ _ _ _ _ _ => rfl) |>.symm,
    sumI_rel hN.consumptions (f := fun c i => sumL (stepsOf start τ) fun t => val c.quantity k t - D.lol g d i t)
      (g := fun c i => val c.quantity k' τ - (D.over start).lol g d i τ) (fun i a b _ _ hab => by
        rw [sumL_sub, hab.2 τ hτ]
        rfl)]
  rfl

theorem self_eq {g d : String} {n n' : InputNode} (hN : LongerNode start s'.horizon k k' n n') (D : Dispatch) (τ : ℕ) :
    selfFlow D g d n' τ = selfFlow D g d n τ := by
  unfold selfFlow
  symm
  apply sumI_rel hN.links
  rintro i l l' - - ⟨e, -⟩
  rw [e]

theorem level_eq {g d : String} {i : ℕ} {c : Storage} (hev : ∀ t < s.horizon, Evolves k D g d i c t) {τ : ℕ} (hτ : τ < s'.horizon) :
    levelBefore (D.over start) g d i c.initCapacity τ = levelBefore D g d i c.initCapacity (start τ) := by
  cases τ with
  | zero => rw [h.cutting.first]; rfl
  | succ τ =>
    have h1 := h.cutting.step τ (by omega)
    show D.cap g d i (start (τ + 1) - 1) = _
    obtain ⟨m, hm⟩ : ∃ m, start (τ + 1) = m + 1 := ⟨start (τ + 1) - 1, by omega⟩
    rw [hm]
    rfl

theorem evolves {g d : String} {i : ℕ} {a b : Storage} (h0 : a.initCapacity = b.initCapacity)
    (heff : Throughout start s'.horizon k k' Eq a.eff b.eff) (hev : ∀ t < s.horizon, Evolves k D g d i a t) {τ : ℕ}
    (hτ : τ < s'.horizon) : Evolves k' (D.over start) g d i b τ := by
  have h1 := h.cutting.step τ hτ
  have h2 := h.cutting.mono (τ := τ + 1) hτ
  have h3 := level_after (D := D) (k := k) (g := g) (d := d) (i := i) (c := a) (a := start τ) (start (τ + 1) - start τ)
    fun t _ ht => hev t (by omega)
  rw [show start τ + (start (τ + 1) - start τ) = start (τ + 1) by omega] at h3
  have h4 : levelBefore D g d i a.initCapacity (start (τ + 1)) = (D.over start).cap g d i τ := by
    show _ = D.cap g d i (start (τ + 1) - 1)
    obtain ⟨m, hm⟩ : ∃ m, start (τ + 1) = m + 1 := ⟨start (τ + 1) - 1, by omega⟩
    rw [hm]
    rfl
  unfold Evolves
  rw [← h0, level_eq h hev hτ, ← h4, h3, sumL_sub]
  have h5 : (sumL (List.range' (start τ) (start (τ + 1) - start τ)) fun t => val a.eff k t * D.fin g d i t) =
      val b.eff k' τ * (D.over start).fin g d i τ := by
    show _ = val b.eff k' τ * sumL (stepsOf start τ) fun t => D.fin g d i t
    rw [← sumL_mul]
    exact sumL_congr fun t ht => by rw [heff τ hτ t ht]
  rw [h5]
  show _ = _ + _ - sumL (stepsOf start τ) fun t => D.fout g d i t
  unfold stepsOf
  ring

theorem ratios (hr : RatiosOk s k D) : RatiosOk s' k' (D.over start) := by
  intro p' hp' g d r' hr' τ hτ
  obtain ⟨p, hp, e, hC⟩ := forall₂_mem_right h.converters hp'
  obtain ⟨⟨key, r⟩, hq, e', hs⟩ := forall₂_mem_right hC.sources hr'
  dsimp only at e' hs
  subst e'
  rw [← e]
  show (sumL (stepsOf start τ) fun t => D.convSrc p.1 (g, d) t) * val r' k' τ = sumL (stepsOf start τ) fun t => D.convDest p.1 t
  rw [mul_comm, ← sumL_mul]
  refine sumL_congr fun t ht => ?_
  rw [← hr p hp g d r hq t (h.cutting.lt hτ ht), hs τ hτ t ht, mul_comm]

theorem feasible (hD : Spec.Feasible s k D) : Spec.Feasible s' k' (D.over start) where
  bounds := bounds h hD.bounds
  balanced := fun g d n' hn' τ hτ => by
    obtain ⟨n, hn, hN⟩ := node h hn'
    rw [incoming_eq h hN, over_incoming, outgoing_eq h hN hτ]
    exact sumL_congr fun t ht => hD.balanced g d n hn t (h.cutting.lt hτ ht)
  storages := fun g d n' hn' i b hb τ hτ => by
    obtain ⟨n, hn, hN⟩ := node h hn'
    obtain ⟨a, ha, _, _, _, _, h0, heff⟩ := forall₂_get_right hN.storages hb
    exact evolves h h0 heff (hD.storages g d n hn i a ha) hτ
  ratios := ratios h hD.ratios

theorem codeFeasible (hD : CodeFeasible s k D) : CodeFeasible s' k' (D.over start) where
  bounds := bounds h hD.bounds
  balance := fun g d n' hn' τ hτ => by
    obtain ⟨n, hn, hN⟩ := node h hn'
    rw [incoming_eq h hN, over_incoming, outgoing_eq h hN hτ, self_eq h hN, over_self, ← sumL_add]
    exact sumL_congr fun t ht => hD.balance g d n hn t (h.cutting.lt hτ ht)
  storages := fun g d n' hn' b hb τ hτ => by
    obtain ⟨n, hn, hN⟩ := node h hn'
    rw [List.head?_eq_getElem?] at hb
    obtain ⟨a, ha, _, _, _, _, h0, heff⟩ := forall₂_get_right hN.storages hb
    exact evolves h h0 heff (hD.storages g d n hn a (by rw [List.head?_eq_getElem?]; exact ha)) hτ
  ratios := ratios h hD.ratios

theorem cost_le (hb : Bounds s k D) : cost s' k' (D.over start) ≤ cost s k D := by
  have hlt : ∀ τ < s'.horizon, ∀ t ∈ stepsOf start τ, t < s.horizon := fun τ hτ t ht => h.cutting.lt hτ ht
  have hx : ∀ (τ : ℕ) (c : ℚ) (f w : ℕ → ℚ), (∀ t ∈ stepsOf start τ, 0 ≤ f t) → (∀ t ∈ stepsOf start τ, c ≤ w t) →
      c * sumL (stepsOf start τ) f ≤ sumL (stepsOf start τ) fun t => w t * f t := by
    intro τ c f w h1 h2
    rw [← sumL_mul]
    exact sumL_le fun t ht => mul_le_mul_of_nonneg_right (h2 t ht) (h1 t ht)
  unfold cost
  rw [h.cutting.sum]
  refine sumL_le fun τ hτ => ?_
  have hτ := List.mem_range.mp hτ
  rw [sumL_add]
  refine add_le_add ?_ ?_
  · rw [← sumL_swap]
    refine sumL_rel_le h.networks ?_
    rintro ⟨g, net⟩ hg ⟨g', net'⟩ - ⟨e, hnet⟩
    dsimp only at e hnet ⊢
    subst e
    rw [← sumL_swap]
    refine sumL_rel_le hnet ?_
    rintro ⟨d, n⟩ hd ⟨d', n'⟩ - ⟨e, hN⟩
    dsimp only at e hN ⊢
    subst e
    have hn : HasNode s g d n := ⟨net, hg, hd⟩
    unfold nodeCost
    simp only [sumL_add, ← sumL_sumI]
    refine add_le_add (add_le_add (add_le_add ?_ ?_) ?_) ?_
    · refine sumI_rel_le hN.consumptions fun i a b ha _ hab => ?_
      exact hx τ _ _ _ (fun t ht => (hb.consumptions g d n hn i a ha t (hlt τ hτ t ht)).1) (hab.1 τ hτ)
    · refine sumI_rel_le hN.productions fun i a b ha _ hab => ?_
      exact hx τ _ _ _ (fun t ht => (hb.productions g d n hn i a ha t (hlt τ hτ t ht)).1) (hab.1 τ hτ)
    · refine sumI_rel_le hN.storages fun i a b ha _ hab => ?_
      obtain ⟨_, _, _, hc, _, _⟩ := hab
      have hpos := fun t ht => (hb.storages g d n hn i a ha t (hlt τ hτ t ht)).1.1
      show val b.cost k' τ * D.cap g d i (endOf start τ) ≤ _
      have hm := h.cutting.end_mem hτ
      have e : (sumL (stepsOf start τ) fun t => if t = endOf start τ then val a.cost k t * D.cap g d i t else 0) =
          val a.cost k (endOf start τ) * D.cap g d i (endOf start τ) := by
        have := sumL_bump (f := fun t => if t = endOf start τ then val a.cost k t * D.cap g d i t else 0) (g := fun _ => 0)
          (List.nodup_range' (s := start τ) (n := start (τ + 1) - start τ)) hm
          (e := val a.cost k (endOf start τ) * D.cap g d i (endOf start τ)) (by simp) (fun t _ ht => by simp [ht])
        rw [sumL_zero, zero_add] at this
        exact this
      calc val b.cost k' τ * D.cap g d i (endOf start τ) ≤ val a.cost k (endOf start τ) * D.cap g d i (endOf start τ) :=
            mul_le_mul_of_nonneg_right (hc τ hτ).1 (hpos _ hm)
        _ = _ := e.symm
        _ ≤ _ := sumL_le fun t ht => by
          split_ifs with heq
          · exact le_refl _
          · exact mul_nonneg ((hc τ hτ).2 t ht heq) (hpos t ht)
    · refine sumI_rel_le hN.links fun i a b ha _ hab => ?_
      exact hx τ _ _ _ (fun t ht => (hb.links g d n hn i a ha t (hlt τ hτ t ht)).1) (hab.2.1 τ hτ)
  · rw [← sumL_swap]
    refine sumL_rel_le h.converters fun p hp q hq hpq => ?_
    rw [← hpq.1]
    exact hx τ _ _ _ (fun t ht => (hb.convDest p hp t (hlt τ hτ t ht)).1) (hpq.2.cost τ hτ)

theorem lost_eq (D : Dispatch) (τ : ℕ) :
    (sumN s' fun g d n => sumI n.consumptions fun _ i => (D.over start).lol g d i τ) =
      sumL (stepsOf start τ) fun t => sumN s fun g d n => sumI n.consumptions fun _ i => D.lol g d i t := by
  rw [← sumN_sumL]
  symm
  unfold sumN
  refine sumL_rel h.networks ?_
  rintro ⟨g, net⟩ hg ⟨g', net'⟩ - ⟨e, hnet⟩
  dsimp only at e hnet ⊢
  subst e
  refine sumL_rel hnet ?_
  rintro ⟨d, n⟩ hd ⟨d', n'⟩ - ⟨e, hN⟩
  dsimp only at e hN ⊢
  subst e
  rw [← sumL_sumI]
  exact sumI_rel hN.consumptions fun _ _ _ _ _ _ => rfl

end Longer

end Hadar
