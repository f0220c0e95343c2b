import Verif.Spec.Invest
import Verif.Proofs.Extension
import Verif.Proofs.Worth

/-!
# The worth of a study and of what is added to it
-/

namespace Hadar

open Spec

variable {s s' : Study} {k : ℕ} {P : Prices}

theorem sumI_newIn {α : Type} {l l' : List α} (h : l <+: l') {e : α → ℚ} :
    sumI l' (fun a _ => e a) = sumI l (fun a _ => e a) + sumI (newIn l l') fun a _ => e a := by
  rw [sumI_prefix h (e := e) fun _ _ _ _ => rfl]
  congr 1
  rw [sumI_eq]
  unfold sumL
  rw [show (fun p : α × ℕ => e p.1) = e ∘ Prod.fst from rfl, ← List.map_map, List.zipIdx_map_fst]

theorem sumI_newIn_one {α : Type} {l l' : List α} (h : l <+: l') (h1 : l'.length ≤ 1) {f : α → ℕ → ℚ} :
    sumI l' f = sumI l f + sumI (newIn l l') f := by
  obtain ⟨m, rfl⟩ := h
  cases l with
  | nil => simp [newIn, sumI]
  | cons a l =>
    have : l = [] ∧ m = [] := by
      simp only [List.cons_append, List.length_cons, List.length_append] at h1
      exact ⟨List.length_eq_zero_iff.1 (by omega), List.length_eq_zero_iff.1 (by omega)⟩
    obtain ⟨rfl, rfl⟩ := this
    simp [newIn, sumI]

theorem nodeWorth_new {g d : String} {n n' : InputNode} (hx : NodeExt n n') (h1 : n'.storages.length ≤ 1) (hn : inNode s g d = n) (s1 s2 s3 : Study)
    (e2 : s2.horizon = s1.horizon) (e3 : s3.horizon = s1.horizon) (t : ℕ) :
    nodeWorth s1 k P t g d n' = nodeWorth s2 k P t g d n + nodeWorth s3 k P t g d (onlyNewNode s g d n') := by
  unfold nodeWorth onlyNewNode
  rw [hn, e2, e3]
  dsimp only
  rw [sumI_newIn hx.consumptions, sumI_newIn hx.productions, sumI_newIn hx.links, sumI_newIn_one hx.storages h1,
    sumI_newIn_one hx.storages h1, sumI_newIn_one hx.storages h1]
  ring

theorem firstWorth_new {g d : String} {n n' : InputNode} (hx : NodeExt n n') (h1 : n'.storages.length ≤ 1) (hn : inNode s g d = n) :
    firstWorth P g d n' = firstWorth P g d n + firstWorth P g d (onlyNewNode s g d n') := by
  unfold firstWorth onlyNewNode
  rw [hn]
  exact sumI_newIn_one hx.storages h1

theorem onlyNewNode_new {g d : String} (h : ∀ n, ¬ HasNode s g d n) (n' : InputNode) : onlyNewNode s g d n' = n' := by
  unfold onlyNewNode newIn
  rw [inNode_none h]
  rfl

theorem sumN_onlyNew (f : String → String → InputNode → ℚ) :
    sumN (onlyNew s s') f = sumN s' fun g d n => f g d (onlyNewNode s g d n) := by
  simp only [sumN, onlyNew, sumL, List.map_map, Function.comp_def]

theorem worth_new (he : StudyExt s s') (hi : StudyInv s) (hi' : StudyInv s') (hc : SameConverters s s') (h1 : OneStorage s') :
    worth s' k P = worth s k P + worth (onlyNew s s') k P := by
  have hh : s'.horizon = s.horizon := he.horizon
  have key : ∀ t, sumN s' (nodeWorth s' k P t) = sumN s (nodeWorth s k P t) + sumN (onlyNew s s') (nodeWorth (onlyNew s s') k P t) := by
    intro t
    rw [sumN_onlyNew]
    apply he.sumN hi hi'
    · intro g d n n' hn hn' hx
      exact nodeWorth_new hx (h1 g d n' hn') (inNode_eq hi hn) _ _ _ hh.symm rfl t
    · intro g d n' hn' hno
      rw [onlyNewNode_new hno]
      rfl
  have key2 : sumN s' (firstWorth P) = sumN s (firstWorth P) + sumN (onlyNew s s') (firstWorth P) := by
    rw [sumN_onlyNew]
    apply he.sumN hi hi'
    · intro g d n n' hn hn' hx
      exact firstWorth_new hx (h1 g d n' hn') (inNode_eq hi hn)
    · intro g d n' hn' hno
      rw [onlyNewNode_new hno]
  have key3 : ∀ t, sumL s'.converters (convWorth k P t) =
      sumL s.converters (convWorth k P t) + sumL (onlyNew s s').converters (convWorth k P t) := by
    intro t
    show _ = _ + sumL (s'.converters.filter _) _
    rw [sumL_filter]
    apply sumL_keyed_more hi.names.converters hi'.names.converters
    · exact fun p hp => ⟨p, hc p hp, rfl⟩
    · intro p hp q hq e1
      have : p = q := List.inj_on_of_nodup_map hi'.names.converters (hc p hp) hq e1
      subst this
      rw [if_neg, add_zero]
      simpa using ⟨p.2, hp⟩
    · intro q hq hno
      rw [if_pos (by simpa using hno)]
  unfold worth
  show (sumL (List.range s'.horizon) fun t => sumN s' (nodeWorth s' k P t) - _) - (if s'.horizon = 0 then 0 else sumN s' (firstWorth P)) =
    ((sumL (List.range s.horizon) fun t => sumN s (nodeWorth s k P t) - _) - (if s.horizon = 0 then 0 else sumN s (firstWorth P))) +
    ((sumL (List.range s'.horizon) fun t => sumN (onlyNew s s') (nodeWorth (onlyNew s s') k P t) - _) -
      (if s'.horizon = 0 then 0 else sumN (onlyNew s s') (firstWorth P)))
  simp only [key, key2, key3]
  rw [hh]
  have e : ∀ t, sumN s (nodeWorth s k P t) + sumN (onlyNew s s') (nodeWorth (onlyNew s s') k P t) -
      (sumL s.converters (convWorth k P t) + sumL (onlyNew s s').converters (convWorth k P t)) =
      (sumN s (nodeWorth s k P t) - sumL s.converters (convWorth k P t)) +
      (sumN (onlyNew s s') (nodeWorth (onlyNew s s') k P t) - sumL (onlyNew s s').converters (convWorth k P t)) := fun t => by ring
  rw [sumL_congr fun t _ => e t, sumL_add]
  split <;> ring

/-! ### One element added -/

theorem sumN_changed {g d : String} {n n' : InputNode} (h : OnlyNodeChanged s s' g d n n') (f : String → String → InputNode → ℚ) :
    sumN s' f = sumN s f + (f g d n' - f g d n) := by
  obtain ⟨pre, post, npre, npost, h1, rfl⟩ := h
  unfold sumN
  rw [h1]
  simp only [sumL, List.map_append, List.map_cons, List.sum_append, List.sum_cons]
  ring

theorem worth_changed {g d : String} {n n' : InputNode} (h : OnlyNodeChanged s s' g d n n') (hst : n'.storages = n.storages) :
    worth s' k P = worth s k P + sumL (List.range s.horizon) fun t => nodeWorth s k P t g d n' - nodeWorth s k P t g d n := by
  have hcv : s'.converters = s.converters := by
    obtain ⟨pre, post, npre, npost, h1, rfl⟩ := h
    rfl
  have hh : s'.horizon = s.horizon := by
    obtain ⟨pre, post, npre, npost, h1, rfl⟩ := h
    rfl
  have key2 : sumN s' (firstWorth P) = sumN s (firstWorth P) := by
    rw [sumN_changed h]
    unfold firstWorth
    rw [hst]
    ring
  have key : ∀ t, sumN s' (nodeWorth s' k P t) = sumN s (nodeWorth s k P t) + (nodeWorth s k P t g d n' - nodeWorth s k P t g d n) := by
    intro t
    rw [← sumN_changed h]
    unfold nodeWorth
    rw [hh]
  unfold worth
  show (sumL (List.range s'.horizon) fun t => sumN s' (nodeWorth s' k P t) - _) - (if s'.horizon = 0 then 0 else sumN s' (firstWorth P)) =
    ((sumL (List.range s.horizon) fun t => sumN s (nodeWorth s k P t) - _) - (if s.horizon = 0 then 0 else sumN s (firstWorth P))) + _
  simp only [key, key2, hcv, hh]
  have e : ∀ t, sumN s (nodeWorth s k P t) + (nodeWorth s k P t g d n' - nodeWorth s k P t g d n) - sumL s.converters (convWorth k P t) =
      (sumN s (nodeWorth s k P t) - sumL s.converters (convWorth k P t)) + (nodeWorth s k P t g d n' - nodeWorth s k P t g d n) :=
    fun t => by ring
  rw [sumL_congr fun t _ => e t, sumL_add]
  ring

theorem sumI_snoc {α : Type} (l : List α) (a : α) (f : α → ℕ → ℚ) : sumI (l ++ [a]) f = sumI l f + f a l.length := by
  rw [sumI_eq, sumI_eq, List.zipIdx_append, sumL_append]
  simp [sumL]

theorem nodeWorth_production (g d : String) (n : InputNode) (p : Production) (t : ℕ) :
    nodeWorth s k P t g d { n with productions := n.productions ++ [p] } - nodeWorth s k P t g d n =
      -(max 0 (P.node g d t - val p.cost k t) * val p.quantity k t) := by
  unfold nodeWorth
  dsimp only
  rw [sumI_snoc]
  ring

theorem nodeWorth_link (g d : String) (n : InputNode) (l : Link) (t : ℕ) :
    nodeWorth s k P t g d { n with links := n.links ++ [l] } - nodeWorth s k P t g d n =
      -(max 0 (P.node g l.dest t - P.node g d t - val l.cost k t) * val l.quantity k t) := by
  unfold nodeWorth
  dsimp only
  rw [sumI_snoc]
  ring

theorem Spec.Best.earns {loss x top : ℚ} (h : Best loss x top) : max 0 (-loss) * top = -loss * x := by
  rcases lt_trichotomy loss 0 with h0 | h0 | h0
  · rw [h.2 h0, max_eq_right (by linarith)]
  · rw [h0]; simp
  · rw [h.1 h0, max_eq_left (by linarith)]; ring

end Hadar
