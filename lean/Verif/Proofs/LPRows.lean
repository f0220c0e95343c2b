import Verif.Proofs.LPBuild
import Mathlib.Tactic.Linarith
import Mathlib.Tactic.Ring

/-!
# The rows of the linear problem, in closed form
-/

namespace Hadar

open Spec Cmd

/-! ### Values of linear forms -/

theorem value_set (d : Dict Var ℚ) (v : Var) (c : ℚ) (x : Var → ℚ) :
    value (d.set v c) x = value d x + (c - (d.get? v).getD 0) * x v := by
  induction d with
  | nil => simp [Dict.set, value]
  | cons p d ih =>
    obtain ⟨k, c'⟩ := p
    unfold Dict.set
    rw [Dict.get?_cons]
    split_ifs with h
    · subst h
      simp only [value, List.map_cons, List.sum_cons, Option.getD_some]; ring
    · simp only [value, List.map_cons, List.sum_cons] at ih ⊢
      rw [ih]; ring

theorem value_foldl (l : List (Var × ℚ)) (d : Dict Var ℚ) (x : Var → ℚ)
    (hn : (l.map Prod.fst).Nodup) :
    value (l.foldl (fun d p => d.set p.1 p.2) d) x =
      value d x + sumL l fun p => (p.2 - (d.get? p.1).getD 0) * x p.1 := by
  induction l generalizing d with
  | nil => simp [sumL]
  | cons p l ih =>
    rw [List.map_cons, List.nodup_cons] at hn
    rw [List.foldl_cons, ih _ hn.2, value_set]
    have : (sumL l fun q => (q.2 - ((d.set p.1 p.2).get? q.1).getD 0) * x q.1) =
        sumL l fun q => (q.2 - (d.get? q.1).getD 0) * x q.1 := by
      unfold sumL
      congr 1
      apply List.map_congr_left
      intro q hq
      rw [Dict.get?_set_ne]
      rintro h
      exact hn.1 (h ▸ List.mem_map.mpr ⟨q, hq, rfl⟩)
    rw [this]
    simp only [sumL, List.map_cons, List.sum_cons]; ring

theorem value_ofList_append (l l' : List (Var × ℚ)) (x : Var → ℚ) (hn : (l'.map Prod.fst).Nodup) :
    value (Dict.ofList (l ++ l')) x = value (Dict.ofList l) x +
      sumL l' fun p => (p.2 - ((Dict.ofList l).get? p.1).getD 0) * x p.1 := by
  rw [← value_foldl l' (Dict.ofList l) x hn, Dict.ofList, Dict.ofList, List.foldl_append]

theorem value_ofList (l : List (Var × ℚ)) (x : Var → ℚ) (hn : (l.map Prod.fst).Nodup) :
    value (Dict.ofList l) x = sumL l fun p => p.2 * x p.1 := by
  rw [Dict.ofList, value_foldl l [] x hn]
  simp [value]

theorem sumL_append {α : Type} (l l' : List α) (f : α → ℚ) :
    sumL (l ++ l') f = sumL l f + sumL l' f := by simp [sumL]

theorem sumL_map {α β : Type} (l : List α) (g : α → β) (f : β → ℚ) :
    sumL (l.map g) f = sumL l fun x => f (g x) := by simp [sumL, Function.comp_def]

theorem sumL_flatMap {α β : Type} (l : List α) (g : α → List β) (f : β → ℚ) :
    sumL (l.flatMap g) f = sumL l fun x => sumL (g x) f := by
  induction l with
  | nil => rfl
  | cons a l ih => rw [List.flatMap_cons, sumL_append, ih]; simp [sumL]

theorem sumL_filter {α : Type} (l : List α) (p : α → Bool) (f : α → ℚ) :
    sumL (l.filter p) f = sumL l fun x => if p x = true then f x else 0 := by
  induction l with
  | nil => rfl
  | cons a l ih =>
    rw [List.filter_cons]
    split_ifs with h
    · simp only [sumL, List.map_cons, List.sum_cons, if_pos h] at ih ⊢; rw [ih]
    · simp only [sumL, List.map_cons, List.sum_cons, if_neg h] at ih ⊢; rw [ih]; simp

theorem sumL_congr {α : Type} {l : List α} {f g : α → ℚ} (h : ∀ x ∈ l, f x = g x) :
    sumL l f = sumL l g := by
  unfold sumL; rw [List.map_congr_left h]

theorem sumL_add {α : Type} (l : List α) (f g : α → ℚ) :
    (sumL l fun x => f x + g x) = sumL l f + sumL l g := by
  induction l with
  | nil => simp [sumL]
  | cons a l ih => simp only [sumL, List.map_cons, List.sum_cons] at ih ⊢; rw [ih]; ring

theorem sumL_mul {α : Type} (l : List α) (c : ℚ) (f : α → ℚ) :
    (sumL l fun x => c * f x) = c * sumL l f := by
  induction l with
  | nil => simp [sumL]
  | cons a l ih => simp only [sumL, List.map_cons, List.sum_cons] at ih ⊢; rw [ih]; ring

theorem sumL_neg {α : Type} (l : List α) (f : α → ℚ) : (sumL l fun x => -f x) = -sumL l f := by
  have := sumL_mul l (-1) f
  simp only [neg_mul, one_mul] at this
  exact this

theorem sumL_sub {α : Type} (l : List α) (f g : α → ℚ) :
    (sumL l fun x => f x - g x) = sumL l f - sumL l g := by
  simp only [sub_eq_add_neg]; rw [sumL_add, sumL_neg]

theorem sumL_zero {α : Type} (l : List α) : (sumL l fun _ => (0 : ℚ)) = 0 := by simp [sumL]

theorem sumL_eq_zero {α : Type} {l : List α} {f : α → ℚ} (h : ∀ x ∈ l, f x = 0) :
    sumL l f = 0 := by
  rw [sumL_congr h, sumL_zero]

theorem sumI_eq {α : Type} (l : List α) (f : α → ℕ → ℚ) :
    sumI l f = sumL l.zipIdx fun p => f p.1 p.2 := rfl

/-! ### Picking one element out of nested loops -/

theorem flatMap_single {α κ β : Type} {l : List α} (key : α → κ) {f : α → List β} {a : α}
    (hn : (l.map key).Nodup) (ha : a ∈ l) (hf : ∀ b ∈ l, key b ≠ key a → f b = []) :
    l.flatMap f = f a := by
  obtain ⟨pre, post, rfl⟩ := List.append_of_mem ha
  rw [List.map_append, List.map_cons, List.nodup_append] at hn
  obtain ⟨h1, h2, h3⟩ := hn
  rw [List.nodup_cons] at h2
  have e1 : pre.flatMap f = [] := by
    rw [List.flatMap_eq_nil_iff]
    intro b hb
    exact hf b (by simp [hb]) (h3 _ (List.mem_map.mpr ⟨b, hb, rfl⟩) _ (by simp))
  have e2 : post.flatMap f = [] := by
    rw [List.flatMap_eq_nil_iff]
    intro b hb
    refine hf b (by simp [hb]) (fun h => h2.1 ?_)
    rw [← h]; exact List.mem_map.mpr ⟨b, hb, rfl⟩
  rw [List.flatMap_append, List.flatMap_cons, e1, e2]; simp

theorem flatMap_range_single {β : Type} {h t : ℕ} (ht : t < h) {f : ℕ → List β}
    (hf : ∀ t' < h, t' ≠ t → f t' = []) : (List.range h).flatMap f = f t :=
  flatMap_single (fun t => t) (by simpa using List.nodup_range) (by simpa using ht)
    (fun b hb hne => hf b (by simpa using hb) hne)

theorem nodes_single {s : Study} (hi : StudyInv s) {β : Type} {g d : String} {net : InputNetwork}
    {n : InputNode} (hg : (g, net) ∈ s.networks) (hd : (d, n) ∈ net.nodes)
    {f : String → String → InputNode → List β}
    (hf : ∀ g' d' n', (g', d') ≠ (g, d) → f g' d' n' = []) :
    (s.networks.flatMap fun p => p.2.nodes.flatMap fun q => f p.1 q.1 q.2) = f g d n := by
  rw [flatMap_single (fun p => p.1) hi.names.networks hg]
  · rw [flatMap_single (fun q => q.1) (hi.names.nodes _ hg) hd]
    intro b _ hb
    exact hf _ _ _ (by simpa using hb)
  · intro b _ hb
    rw [List.flatMap_eq_nil_iff]
    intro q _
    exact hf _ _ _ (by
      intro e
      simp only [Prod.mk.injEq] at e
      exact hb e.1)

/-! ### Adequacy rows -/

def nodeE (g d : String) (t : ℕ) (n : InputNode) : List (Var × ℚ) :=
  (n.consumptions.zipIdx.map fun p => (.lol t g d p.2, 1)) ++
  (n.productions.zipIdx.map fun p => (.prod t g d p.2, 1)) ++
  (n.storages.zipIdx.flatMap fun p => [(.fin t g d p.2, -1), (.fout t g d p.2, 1)]) ++
  (n.links.zipIdx.map fun p => (.link t g d p.2, -1))

def convE (g d : String) (t : ℕ) (c : Converter) : List (Var × ℚ) :=
  (if c.destNetwork = g ∧ c.destNode = d then [(.convDest t c.name, 1)] else []) ++
  (c.srcRatios.filter (fun q => q.1 = [g, d])).map fun q => (.convSrc t c.name q.1, -1)

def impE (g d : String) (t : ℕ) (net : InputNetwork) : List (Var × ℚ) :=
  net.nodes.flatMap fun q =>
    (q.2.links.zipIdx.filter fun p => p.1.dest = d).map fun p => (.link t g q.1 p.2, 1)

theorem filterMap_nil {α β : Type} {f : α → Option β} {l : List α} (h : ∀ a ∈ l, f a = none) :
    l.filterMap f = [] := by simpa using h

theorem filterMap_some {α β γ : Type} {f : α → Option β} {g : γ → α} {e : γ → β} {l : List γ}
    (h : ∀ a ∈ l, f (g a) = some (e a)) : (l.map g).filterMap f = l.map e := by
  induction l with
  | nil => rfl
  | cons a l ih =>
    rw [List.map_cons, List.filterMap_cons_some (h a (by simp)), ih (fun b hb => h b (by simp [hb]))]
    rfl

theorem row_numVars (n : LPNode Var) (r : RowId) : n.numVars.filterMap (coefOf r) = [] := by
  apply filterMap_nil
  intro a ha
  simp only [LPNode.numVars, List.mem_append, List.mem_map, List.mem_flatMap, List.mem_cons,
    List.not_mem_nil, or_false] at ha
  rcases ha with ((⟨_, _, rfl⟩ | ⟨_, _, rfl⟩) | ⟨_, _, (rfl | rfl | rfl)⟩) | ⟨_, _, rfl⟩ <;> rfl

theorem row_objNode (n : LPNode Var) (r : RowId) :
    (ObjectiveBuilder.addNode n).filterMap (coefOf r) = [] := by
  apply filterMap_nil
  intro a ha
  simp only [ObjectiveBuilder.addNode, List.mem_append, List.mem_map] at ha
  rcases ha with ((⟨_, _, rfl⟩ | ⟨_, _, rfl⟩) | ⟨_, _, rfl⟩) | ⟨_, _, rfl⟩ <;> rfl

theorem mem_storLog {g d : String} {k t : ℕ} {n : InputNode} {a : Cmd} (h : a ∈ storLog g d k t n) :
    ∃ st ∈ n.storages, (∃ q, a = .constraint (.stor t g d st.name) q q) ∨
      ∃ v c, a = .setCoef (.stor t g d st.name) v c := by
  unfold storLog at h
  cases hs : n.storages with
  | nil => rw [hs] at h; simp at h
  | cons st l =>
    rw [hs] at h
    refine ⟨st, by simp, ?_⟩
    dsimp only at h
    split_ifs at h
    · simp only [List.mem_cons, List.not_mem_nil, or_false] at h
      rcases h with rfl | rfl | rfl | rfl
      · exact .inl ⟨_, rfl⟩
      all_goals exact .inr ⟨_, _, rfl⟩
    · simp only [List.mem_cons, List.not_mem_nil, or_false] at h
      rcases h with rfl | rfl | rfl | rfl | rfl
      · exact .inl ⟨_, rfl⟩
      all_goals exact .inr ⟨_, _, rfl⟩

theorem adeq_storLog (g d : String) (k t : ℕ) (n : InputNode) (t' : ℕ) (g' d' : String) :
    (storLog g d k t n).filterMap (coefOf (.adeq t' g' d')) = [] := by
  apply filterMap_nil
  intro a ha
  obtain ⟨st, _, ⟨q, rfl⟩ | ⟨v, c, rfl⟩⟩ := mem_storLog ha
  · rfl
  · simp [coefOf]

theorem adeq_addNode_self (g d : String) (k t : ℕ) (n : InputNode) :
    (AdequacyBuilder.addNode g d (lpNodeOf g d k t n) t).filterMap (coefOf (.adeq t g d)) =
      nodeE g d t n := by
  simp [AdequacyBuilder.addNode, lpNodeOf, nodeE, List.filterMap_append, List.filterMap_map,
    coefOf, List.filterMap_flatMap, List.flatMap_map, Function.comp_def, List.filterMap_cons]

theorem adeq_addNode_ne {g d : String} {k t : ℕ} {n : InputNode} {t' : ℕ} {g' d' : String}
    (h : RowId.adeq t g d ≠ .adeq t' g' d') :
    (AdequacyBuilder.addNode g d (lpNodeOf g d k t n) t).filterMap (coefOf (.adeq t' g' d')) = [] := by
  apply filterMap_nil
  intro a ha
  simp only [AdequacyBuilder.addNode, lpNodeOf, List.mem_append, List.mem_map, List.mem_flatMap,
    List.mem_cons, List.not_mem_nil, or_false] at ha
  rcases ha with (((rfl | ⟨_, _, rfl⟩) | ⟨_, _, rfl⟩) | ⟨_, _, (rfl | rfl)⟩) | ⟨_, ⟨_, _, rfl⟩, rfl⟩
  · rfl
  all_goals simp only [coefOf, if_neg h]

theorem adeq_nodeLog_self (g d : String) (k t : ℕ) (n : InputNode) :
    (nodeLog g d k t n).filterMap (coefOf (.adeq t g d)) = nodeE g d t n := by
  unfold nodeLog
  rw [List.filterMap_append, List.filterMap_append, List.filterMap_append, row_numVars,
    adeq_addNode_self, adeq_storLog, row_objNode]
  simp

theorem adeq_nodeLog_ne {g d : String} {k t : ℕ} {n : InputNode} {t' : ℕ} {g' d' : String}
    (h : RowId.adeq t g d ≠ .adeq t' g' d') :
    (nodeLog g d k t n).filterMap (coefOf (.adeq t' g' d')) = [] := by
  unfold nodeLog
  rw [List.filterMap_append, List.filterMap_append, List.filterMap_append, row_numVars,
    adeq_addNode_ne h, adeq_storLog, row_objNode]
  rfl

theorem row_convVars (k t : ℕ) (c : Converter) (r : RowId) :
    (convVars k t c).filterMap (coefOf r) = [] := by
  apply filterMap_nil
  intro a ha
  simp only [convVars, List.mem_append, List.mem_map, List.mem_cons, List.not_mem_nil,
    or_false] at ha
  rcases ha with ⟨_, _, h⟩ | rfl
  · rcases srcVar_eq h with ⟨_, rfl⟩ | ⟨_, rfl⟩ <;> rfl
  · rfl

theorem adeq_convMix (k t : ℕ) (c : Converter) (t' : ℕ) (g' d' : String) :
    (convMix k t c).filterMap (coefOf (.adeq t' g' d')) = [] := by
  apply filterMap_nil
  intro a ha
  simp only [convMix, List.mem_flatMap, List.mem_cons, List.not_mem_nil, or_false] at ha
  rcases ha with ⟨_, _, rfl | rfl | rfl⟩ <;> simp [coefOf]

theorem adeq_convLog {s : Study} {key : String} {c : Converter} (hc : ConverterOk s key c)
    (k t : ℕ) (g d : String) :
    (convLog k t c).filterMap (coefOf (.adeq t g d)) = convE g d t c := by
  unfold convLog
  rw [List.filterMap_append, List.filterMap_append, List.filterMap_append, row_convVars,
    adeq_convMix]
  have e1 : [Cmd.setObj (Var.convDest t c.name) (fval c.cost k t)].filterMap
    (coefOf (.adeq t g d)) = [] := rfl
  rw [e1, List.append_nil, List.append_nil, List.nil_append, convAdeq, convE, List.filterMap_cons]
  have e2 : (c.srcRatios.map fun p => Cmd.setCoef (.adeq t (p.1.getD 0 "") (p.1.getD 1 ""))
      (.convSrc t c.name p.1) (-1)).filterMap (coefOf (.adeq t g d)) =
      (c.srcRatios.filter (fun q => q.1 = [g, d])).map fun q => (.convSrc t c.name q.1, -1) := by
    have hs := hc.sources
    generalize c.srcRatios = l at hs
    induction l with
    | nil => rfl
    | cons q l ih =>
      obtain ⟨a, b, m, e, _⟩ := hs q.1 (by simp)
      have ih := ih (fun k hk => hs k (by
        rw [List.map_cons]; exact List.mem_cons_of_mem _ hk))
      rw [List.map_cons, List.filterMap_cons, ih, List.filter_cons]
      simp only [coefOf, e, List.getD_cons_zero, List.getD_cons_succ, RowId.adeq.injEq, true_and,
        List.cons.injEq, and_true, decide_eq_true_eq]
      by_cases h : a = g ∧ b = d
      · obtain ⟨rfl, rfl⟩ := h
        simp [e]
      · simp [h]
  rw [e2]
  simp only [coefOf, RowId.adeq.injEq, true_and]
  by_cases h : c.destNetwork = g ∧ c.destNode = d
  · simp [h]
  · simp [h]

theorem adeq_convLog_ne {k t : ℕ} {c : Converter} {t' : ℕ} (h : t ≠ t') (g d : String) :
    (convLog k t c).filterMap (coefOf (.adeq t' g d)) = [] := by
  unfold convLog
  rw [List.filterMap_append, List.filterMap_append, List.filterMap_append, row_convVars,
    adeq_convMix]
  have : (convAdeq t c).filterMap (coefOf (.adeq t' g d)) = [] := by
    apply filterMap_nil
    intro a ha
    simp only [convAdeq, List.mem_cons, List.mem_map] at ha
    rcases ha with rfl | ⟨_, _, rfl⟩ <;> simp [coefOf, h]
  rw [this]; rfl

theorem filterMap_ifmap {α β γ : Type} {f : α → Option β} {g : γ → α} {e : γ → β} {p : γ → Prop}
    [DecidablePred p] {l : List γ} (h : ∀ a ∈ l, f (g a) = if p a then some (e a) else none) :
    (l.map g).filterMap f = (l.filter (fun a => decide (p a))).map e := by
  induction l with
  | nil => rfl
  | cons a l ih =>
    have h1 := h a (by simp)
    have ih := ih (fun b hb => h b (by simp [hb]))
    rw [List.map_cons, List.filterMap_cons, h1, List.filter_cons, ih]
    by_cases hp : p a <;> simp [hp]

theorem adeq_importLog {s : Study} (hi : StudyInv s) {g d : String} {net : InputNetwork}
    (hg : (g, net) ∈ s.networks) {t : ℕ} (ht : t < s.horizon) :
    (importLog s).filterMap (coefOf (.adeq t g d)) = impE g d t net := by
  unfold importLog
  rw [List.filterMap_flatMap, flatMap_range_single ht]
  · unfold timeImports
    rw [List.map_flatMap, List.filterMap_flatMap, flatMap_single (fun p => p.1) hi.names.networks hg]
    · unfold impE
      dsimp only
      rw [List.map_flatMap, List.filterMap_flatMap]
      congr 1
      funext q
      unfold nodeImports
      rw [List.map_map]
      apply filterMap_ifmap (p := fun p : Link × ℕ => p.1.dest = d)
      intro a _
      simp [coefOf]
    · intro b _ hb
      apply filterMap_nil
      intro a ha
      simp only [nodeImports, List.mem_map, List.mem_flatMap] at ha
      obtain ⟨_, ⟨_, _, _, _, rfl⟩, rfl⟩ := ha
      simp [coefOf]
      intro h; exact absurd h hb
  · intro t' _ hne
    apply filterMap_nil
    intro a ha
    simp only [timeImports, nodeImports, List.mem_map, List.mem_flatMap] at ha
    obtain ⟨_, ⟨_, _, _, _, _, _, rfl⟩, rfl⟩ := ha
    simp [coefOf, hne]

theorem adeq_row {s : Study} (hi : StudyInv s) {g d : String} {net : InputNetwork}
    {n : InputNode} (hg : (g, net) ∈ s.networks) (hd : (d, n) ∈ net.nodes) {k t : ℕ}
    (ht : t < s.horizon) :
    (fullLog s k).filterMap (coefOf (.adeq t g d)) =
      (nodeE g d t n ++ s.converters.flatMap fun p => convE g d t p.2) ++ impE g d t net := by
  unfold fullLog
  rw [List.filterMap_append, adeq_importLog hi hg ht, List.filterMap_flatMap,
    flatMap_range_single ht]
  · congr 1
    unfold timeLog
    rw [List.filterMap_append]
    congr 1
    · rw [List.filterMap_flatMap]
      simp only [List.filterMap_flatMap]
      rw [nodes_single hi hg hd
        (f := fun g' d' n' => (nodeLog g' d' k t n').filterMap (coefOf (.adeq t g d))),
        adeq_nodeLog_self]
      intro g' d' n' h
      exact adeq_nodeLog_ne (by simpa using h)
    · rw [List.filterMap_flatMap]
      apply List.flatMap_congr
      intro p hp
      exact adeq_convLog (hi.convs p hp) k t g d
  · intro t' _ hne
    unfold timeLog
    rw [List.filterMap_append, List.filterMap_flatMap, List.filterMap_flatMap]
    simp only [List.filterMap_flatMap]
    rw [List.append_eq_nil_iff]
    constructor
    · rw [List.flatMap_eq_nil_iff]
      intro p _
      rw [List.flatMap_eq_nil_iff]
      intro q _
      exact adeq_nodeLog_ne (by simp [hne])
    · rw [List.flatMap_eq_nil_iff]
      intro p _
      exact adeq_convLog_ne hne g d

/-! ### Distinct variables -/

theorem zipIdx_nodup {α β : Type} (l : List α) (f : ℕ → β) (hf : Function.Injective f) :
    (l.zipIdx.map fun p => f p.2).Nodup := by
  have : l.zipIdx.map (fun p => f p.2) = (List.range l.length).map f := by
    have e : List.map (fun p : α × ℕ => f p.2) l.zipIdx = (l.zipIdx.map Prod.snd).map f := by
      rw [List.map_map]; rfl
    rw [e, List.zipIdx_map_snd, List.range_eq_range']
  rw [this]
  exact List.nodup_range.map hf

def Var.idx : Var → ℕ
  | .lol _ _ _ i | .prod _ _ _ i | .cap _ _ _ i | .fin _ _ _ i | .fout _ _ _ i | .link _ _ _ i => i
  | _ => 0

def Var.node : Var → String
  | .lol _ _ d _ | .prod _ _ d _ | .cap _ _ d _ | .fin _ _ d _ | .fout _ _ d _ | .link _ _ d _ => d
  | _ => ""

def Var.net : Var → String
  | .lol _ g _ _ | .prod _ g _ _ | .cap _ g _ _ | .fin _ g _ _ | .fout _ g _ _ | .link _ g _ _ => g
  | _ => ""

def Var.conv : Var → String
  | .convSrc _ c _ | .convDest _ c => c
  | _ => ""

def Var.time : Var → ℕ
  | .lol t _ _ _ | .prod t _ _ _ | .cap t _ _ _ | .fin t _ _ _ | .fout t _ _ _ | .link t _ _ _
  | .convSrc t _ _ | .convDest t _ => t

theorem nodup_append_of {α : Type} {l l' : List α} (h : l.Nodup) (h' : l'.Nodup)
    (hd : ∀ a ∈ l, a ∉ l') : (l ++ l').Nodup := by
  rw [List.nodup_append]
  exact ⟨h, h', fun a ha b hb e => hd a ha (e ▸ hb)⟩

theorem nodeE_nodup (g d : String) (t : ℕ) (n : InputNode) : ((nodeE g d t n).map Prod.fst).Nodup := by
  unfold nodeE
  simp only [List.map_append, List.map_map, List.map_flatMap, Function.comp_def, List.map_cons,
    List.map_nil]
  apply nodup_append_of
  · apply nodup_append_of
    · apply nodup_append_of
      · exact zipIdx_nodup _ (fun i => Var.lol t g d i) (by intro a b h; simpa using h)
      · exact zipIdx_nodup _ (fun i => Var.prod t g d i) (by intro a b h; simpa using h)
      · intro a ha hb
        simp only [List.mem_map] at ha hb
        obtain ⟨_, _, rfl⟩ := ha
        obtain ⟨_, _, h⟩ := hb
        cases h
    · apply nodup_flatMap_key (fun p => p.2) Var.idx
      · exact zipIdx_nodup _ (fun i => i) (fun _ _ h => h)
      · intro x _; simp
      · intro x _ y hy
        simp only [List.mem_cons, List.not_mem_nil, or_false] at hy
        rcases hy with rfl | rfl <;> rfl
    · intro a ha hb
      simp only [List.mem_append, List.mem_map, List.mem_flatMap, List.mem_cons, List.not_mem_nil,
        or_false] at ha hb
      rcases ha with ⟨_, _, rfl⟩ | ⟨_, _, rfl⟩ <;> obtain ⟨_, _, h | h⟩ := hb <;> cases h
  · exact zipIdx_nodup _ (fun i => Var.link t g d i) (by intro a b h; simpa using h)
  · intro a ha hb
    simp only [List.mem_append, List.mem_map, List.mem_flatMap, List.mem_cons, List.not_mem_nil,
      or_false] at ha hb
    obtain ⟨_, _, h⟩ := hb
    rcases ha with (⟨_, _, rfl⟩ | ⟨_, _, rfl⟩) | ⟨_, _, rfl | rfl⟩ <;> cases h

theorem convE_mem {g d : String} {t : ℕ} {c : Converter} {v : Var}
    (h : v ∈ (convE g d t c).map Prod.fst) :
    v = .convDest t c.name ∨ ∃ src, v = .convSrc t c.name src := by
  unfold convE at h
  simp only [List.map_append, List.mem_append, List.map_map, List.mem_map, Function.comp] at h
  rcases h with ⟨p, hp, rfl⟩ | ⟨q, _, rfl⟩
  · split_ifs at hp
    · simp only [List.mem_singleton] at hp; subst hp; exact .inl rfl
    · simp at hp
  · exact .inr ⟨_, rfl⟩

theorem convE_nodup {g d : String} {t : ℕ} {c : Converter}
    (hs : (c.srcRatios.map Prod.fst).Nodup) : ((convE g d t c).map Prod.fst).Nodup := by
  unfold convE
  rw [List.map_append]
  apply nodup_append_of
  · split_ifs <;> simp
  · rw [List.map_map]
    have h1 : ((c.srcRatios.filter (fun q => q.1 = [g, d])).map Prod.fst).Nodup :=
      hs.sublist (List.filter_sublist.map _)
    have h2 := h1.map (f := fun src => Var.convSrc t c.name src) (by intro a b h; simpa using h)
    rw [List.map_map] at h2
    exact h2
  · intro a ha hb
    simp only [List.mem_map] at ha hb
    obtain ⟨p, hp, rfl⟩ := ha
    obtain ⟨q, ⟨_, _, rfl⟩, h⟩ := hb
    split_ifs at hp
    · simp only [List.mem_singleton] at hp; subst hp; cases h
    · simp at hp

theorem convsE_nodup {s : Study} (hi : StudyInv s) (g d : String) (t : ℕ) :
    ((s.converters.flatMap fun p => convE g d t p.2).map Prod.fst).Nodup := by
  rw [map_fst_flatMap]
  apply nodup_flatMap_key (fun p => p.1) Var.conv
  · exact hi.names.converters
  · intro p hp
    exact convE_nodup (hi.names.sources p hp)
  · intro p hp v hv
    rw [← (hi.convs p hp).name]
    rcases convE_mem hv with rfl | ⟨_, rfl⟩ <;> rfl

theorem nodeE_mem {g d : String} {t : ℕ} {n : InputNode} {v : Var}
    (h : v ∈ (nodeE g d t n).map Prod.fst) :
    (∃ i, v = .lol t g d i) ∨ (∃ i, v = .prod t g d i) ∨ (∃ i, v = .fin t g d i) ∨
      (∃ i, v = .fout t g d i) ∨ ∃ i < n.links.length, v = .link t g d i := by
  unfold nodeE at h
  simp only [List.map_append, List.map_map, List.map_flatMap, Function.comp_def, List.map_cons,
    List.map_nil, List.mem_append, List.mem_map, List.mem_flatMap, List.mem_cons, List.not_mem_nil,
    or_false] at h
  rcases h with ((⟨p, hp, rfl⟩ | ⟨p, hp, rfl⟩) | ⟨p, hp, rfl | rfl⟩) | ⟨p, hp, rfl⟩
  · exact .inl ⟨_, rfl⟩
  · exact .inr (.inl ⟨_, rfl⟩)
  · exact .inr (.inr (.inl ⟨_, rfl⟩))
  · exact .inr (.inr (.inr (.inl ⟨_, rfl⟩)))
  · refine .inr (.inr (.inr (.inr ⟨_, ?_, rfl⟩)))
    have := List.snd_lt_of_mem_zipIdx hp
    simpa using this

theorem impE_nodup {s : Study} (hi : StudyInv s) {g : String} {net : InputNetwork}
    (hg : (g, net) ∈ s.networks) (d : String) (t : ℕ) : ((impE g d t net).map Prod.fst).Nodup := by
  unfold impE
  rw [map_fst_flatMap]
  apply nodup_flatMap_key (fun q => q.1) Var.node
  · exact hi.names.nodes _ hg
  · intro q _
    rw [List.map_map]
    have h1 := zipIdx_nodup q.2.links (fun i => Var.link t g q.1 i)
      (by intro a b h; simpa using h)
    exact h1.sublist ((List.filter_sublist).map _)
  · intro q _ v hv
    simp only [List.map_map, List.mem_map] at hv
    obtain ⟨_, _, rfl⟩ := hv; rfl

/-! ### Value of an adequacy row -/

theorem value_nodeE (g d : String) (t : ℕ) (n : InputNode) (x : Var → ℚ) :
    (sumL (nodeE g d t n) fun p => p.2 * x p.1) =
      sumI n.consumptions (fun _ i => (ofVars x).lol g d i t) +
      sumI n.productions (fun _ i => (ofVars x).prod g d i t) +
      sumI n.storages (fun _ i => (ofVars x).fout g d i t) -
      sumI n.storages (fun _ i => (ofVars x).fin g d i t) -
      sumI n.links (fun _ i => (ofVars x).link g d i t) := by
  unfold nodeE
  simp only [sumL_append, sumL_map, sumL_flatMap, sumI_eq, ofVars]
  have : (sumL n.storages.zipIdx fun p =>
      sumL [(Var.fin t g d p.2, (-1 : ℚ)), (Var.fout t g d p.2, 1)] fun p => p.2 * x p.1) =
      sumL n.storages.zipIdx fun p => x (.fout t g d p.2) - x (.fin t g d p.2) := by
    apply sumL_congr; intro p _; simp [sumL]; ring
  rw [this, sumL_sub]
  simp only [one_mul, neg_mul, sumL_neg]; ring

theorem value_convE (g d : String) (t : ℕ) (c : Converter) (x : Var → ℚ) :
    (sumL (convE g d t c) fun p => p.2 * x p.1) =
      (if c.destNetwork = g ∧ c.destNode = d then (ofVars x).convDest c.name t else 0) -
      sumL c.srcRatios fun q => if q.1 = [g, d] then (ofVars x).convSrc c.name (g, d) t else 0 := by
  unfold convE
  rw [sumL_append, sumL_map, sumL_filter, sub_eq_add_neg, ← sumL_neg]
  congr 1
  · split_ifs <;> simp [sumL, ofVars]
  · apply sumL_congr
    intro q _
    by_cases h : q.1 = [g, d] <;> simp [h, ofVars]

theorem get?_ofList_nodup {l : List (Var × ℚ)} (hn : (l.map Prod.fst).Nodup) (v : Var) (c : ℚ)
    (h : (v, c) ∈ l) : (Dict.ofList l).get? v = some c := by
  rw [Dict.ofList_of_nodup hn]
  exact Dict.get?_of_mem hn h

theorem get?_ofList_none {l : List (Var × ℚ)} (hn : (l.map Prod.fst).Nodup) (v : Var)
    (h : v ∉ l.map Prod.fst) : (Dict.ofList l).get? v = none := by
  rw [Dict.ofList_of_nodup hn, Dict.get?_eq_none_iff]
  exact h

theorem imports_eq {s : Study} (hi : StudyInv s) {g : String} {net : InputNetwork}
    (hg : (g, net) ∈ s.networks) (D : Dispatch) (d : String) (t : ℕ) :
    imports s D g d t = sumL net.nodes fun q =>
      sumI q.2.links fun l i => if l.dest = d then D.link g q.1 i t else 0 := by
  unfold imports
  have : s.networks.filter (·.1 = g) = [(g, net)] := by
    have h := hi.names.networks
    obtain ⟨pre, post, e⟩ := List.append_of_mem hg
    rw [e] at h ⊢
    rw [List.map_append, List.map_cons, List.nodup_append] at h
    obtain ⟨h1, h2, h3⟩ := h
    rw [List.nodup_cons] at h2
    rw [List.filter_append, List.filter_cons]
    have e1 : pre.filter (·.1 = g) = [] := by
      rw [List.filter_eq_nil_iff]
      intro a ha hc
      exact h3 _ (List.mem_map.mpr ⟨a, ha, rfl⟩) g (by simp) (by simpa using hc)
    have e2 : post.filter (·.1 = g) = [] := by
      rw [List.filter_eq_nil_iff]
      intro a ha hc
      refine h2.1 (List.mem_map.mpr ⟨a, ha, by simpa using hc⟩)
    rw [e1, e2]; simp
  rw [this]
  simp [sumL]

theorem value_adeq {s : Study} (hi : StudyInv s) {g d : String} {n : InputNode}
    (hn : HasNode s g d n) {k t : ℕ} (ht : t < s.horizon) (x : Var → ℚ) :
    value (coefs (fullLog s k) (.adeq t g d)) x =
      sumI n.consumptions (fun c _ => val c.quantity k t) +
      (incoming s (ofVars x) g d n t + selfFlow (ofVars x) g d n t -
        outgoing s k (ofVars x) g d n t) := by
  obtain ⟨net, hg, hd⟩ := hn
  unfold coefs
  rw [adeq_row hi hg hd ht]
  have hnd : ((nodeE g d t n ++ s.converters.flatMap fun p => convE g d t p.2).map Prod.fst).Nodup := by
    rw [List.map_append]
    apply nodup_append_of (nodeE_nodup g d t n) (convsE_nodup hi g d t)
    intro v hv hv'
    rw [map_fst_flatMap] at hv'
    obtain ⟨p, _, hv'⟩ := List.mem_flatMap.mp hv'
    rcases nodeE_mem hv with ⟨i, rfl⟩ | ⟨i, rfl⟩ | ⟨i, rfl⟩ | ⟨i, rfl⟩ | ⟨i, _, rfl⟩ <;>
      rcases convE_mem hv' with h | ⟨_, h⟩ <;> cases h
  rw [value_ofList_append _ _ _ (impE_nodup hi hg d t), value_ofList _ _ hnd, sumL_append,
    value_nodeE, sumL_flatMap]
  have e1 : (sumL s.converters fun p => sumL (convE g d t p.2) fun p => p.2 * x p.1) =
      fromConverters s (ofVars x) g d t - toConverters s (ofVars x) g d t := by
    unfold fromConverters toConverters
    rw [← sumL_sub]
    apply sumL_congr
    intro p hp
    rw [value_convE, (hi.convs p hp).name]
  have e2 : (sumL (impE g d t net) fun p => (p.2 - ((Dict.ofList (nodeE g d t n ++
      s.converters.flatMap fun p => convE g d t p.2)).get? p.1).getD 0) * x p.1) =
      imports s (ofVars x) g d t + selfFlow (ofVars x) g d n t := by
    rw [imports_eq hi hg]
    have hself : selfFlow (ofVars x) g d n t = sumL net.nodes fun q =>
        if q.1 = d then sumI q.2.links fun l i =>
          if l.dest = d then (ofVars x).link g q.1 i t else 0 else 0 := by
      unfold selfFlow
      have hnn := hi.names.nodes _ hg
      obtain ⟨pre, post, e⟩ := List.append_of_mem hd
      dsimp only at hnn
      rw [e] at hnn ⊢
      rw [List.map_append, List.map_cons, List.nodup_append] at hnn
      obtain ⟨h1, h2, h3⟩ := hnn
      rw [List.nodup_cons] at h2
      rw [sumL_append]
      have e1 : (sumL pre fun q => if q.1 = d then sumI q.2.links fun l i =>
          if l.dest = d then (ofVars x).link g q.1 i t else 0 else 0) = 0 := by
        apply sumL_eq_zero
        intro q hq
        rw [if_neg]
        exact h3 _ (List.mem_map.mpr ⟨q, hq, rfl⟩) d (List.mem_cons_self ..)
      have e2 : (sumL post fun q => if q.1 = d then sumI q.2.links fun l i =>
          if l.dest = d then (ofVars x).link g q.1 i t else 0 else 0) = 0 := by
        apply sumL_eq_zero
        intro q hq
        rw [if_neg]
        intro h
        exact h2.1 (h ▸ List.mem_map.mpr ⟨q, hq, rfl⟩)
      rw [e1, zero_add]
      have : ∀ (a : String × InputNode) (l : List (String × InputNode)) (f : String × InputNode → ℚ),
          sumL (a :: l) f = f a + sumL l f := by intros; simp [sumL]
      rw [this, e2]
      simp
    rw [hself, ← sumL_add]
    unfold impE
    rw [sumL_flatMap]
    apply sumL_congr
    intro q hq
    rw [sumL_map, sumL_filter, sumI_eq]
    by_cases hqd : q.1 = d
    · have hqn : q.2 = n := by
        have h1 := Dict.get?_of_mem (hi.names.nodes _ hg) (show (q.1, q.2) ∈ net.nodes from hq)
        have h2 := Dict.get?_of_mem (hi.names.nodes _ hg) hd
        rw [hqd] at h1
        rw [h1] at h2
        exact Option.some.inj h2
      rw [if_pos hqd, ← sumL_add]
      apply sumL_congr
      intro p hp
      have hget : (Dict.ofList (nodeE g d t n ++
          s.converters.flatMap fun p => convE g d t p.2)).get? (.link t g q.1 p.2) = some (-1) := by
        apply get?_ofList_nodup hnd
        apply List.mem_append_left
        unfold nodeE
        apply List.mem_append_right
        rw [hqd]
        rw [hqn] at hp
        exact List.mem_map.mpr ⟨p, hp, rfl⟩
      rw [hget]
      by_cases h : p.1.dest = d
      · simp only [h, decide_true, if_true, ofVars, Option.getD_some]; ring
      · simp [h]
    · rw [if_neg hqd, add_zero]
      apply sumL_congr
      intro p hp
      have hget : (Dict.ofList (nodeE g d t n ++
          s.converters.flatMap fun p => convE g d t p.2)).get? (.link t g q.1 p.2) = none := by
        apply get?_ofList_none hnd
        rw [List.map_append, List.mem_append]
        rintro (h | h)
        · rcases nodeE_mem h with ⟨i, h⟩ | ⟨i, h⟩ | ⟨i, h⟩ | ⟨i, h⟩ | ⟨i, _, h⟩ <;> cases h
          exact hqd rfl
        · rw [map_fst_flatMap] at h
          obtain ⟨p, _, h⟩ := List.mem_flatMap.mp h
          rcases convE_mem h with h | ⟨_, h⟩ <;> cases h
      rw [hget]
      by_cases h : p.1.dest = d
      · simp [h, ofVars]
      · simp [h]
  rw [e1, e2]
  unfold incoming outgoing
  have e3 : sumI n.consumptions (fun c i => val c.quantity k t - (ofVars x).lol g d i t) =
      sumI n.consumptions (fun c _ => val c.quantity k t) -
      sumI n.consumptions (fun _ i => (ofVars x).lol g d i t) := by
    simp only [sumI_eq]; rw [sumL_sub]
  rw [e3]
  ring

end Hadar
