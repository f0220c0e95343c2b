import Verif.Proofs.LPRows

/-!
# Feasible solutions and objective of the linear problem
-/

namespace Hadar

open Spec Cmd

/-! ### Storage rows -/

def storE (g d : String) (k t : ℕ) (st : Storage) : List (Var × ℚ) :=
  if t = 0 then [(.fin t g d 0, -(val st.eff k t)), (.fout t g d 0, 1), (.cap t g d 0, 1)]
  else [(.fin t g d 0, -(val st.eff k t)), (.fout t g d 0, 1), (.cap (t - 1) g d 0, -1),
    (.cap t g d 0, 1)]

theorem stor_addNode (g d : String) (n : LPNode Var) (t t' : ℕ) (g' d' name : String) :
    (AdequacyBuilder.addNode g d n t).filterMap (coefOf (.stor t' g' d' name)) = [] := by
  apply filterMap_nil
  intro a ha
  simp only [AdequacyBuilder.addNode, List.mem_append, List.mem_map, List.mem_flatMap,
    List.mem_cons, List.not_mem_nil, or_false] at ha
  rcases ha with (((rfl | ⟨_, _, rfl⟩) | ⟨_, _, rfl⟩) | ⟨_, _, (rfl | rfl)⟩) | ⟨_, _, rfl⟩ <;>
    simp [coefOf]

theorem stor_nodeLog_ne {g d : String} {k t : ℕ} {n : InputNode} {t' : ℕ} {g' d' name : String}
    (h : (t, g, d) ≠ (t', g', d')) :
    (nodeLog g d k t n).filterMap (coefOf (.stor t' g' d' name)) = [] := by
  unfold nodeLog
  rw [List.filterMap_append, List.filterMap_append, List.filterMap_append, row_numVars,
    stor_addNode, row_objNode]
  simp only [List.append_nil, List.nil_append]
  apply filterMap_nil
  intro a ha
  obtain ⟨st, _, ⟨q, rfl⟩ | ⟨v, c, rfl⟩⟩ := mem_storLog ha
  · rfl
  · have : RowId.stor t g d st.name ≠ .stor t' g' d' name := by
      intro e
      simp only [RowId.stor.injEq] at e
      exact h (by simp [e.1, e.2.1, e.2.2.1])
    simp only [coefOf, if_neg this]

theorem stor_nodeLog_self {g d : String} {k t : ℕ} {n : InputNode} {st : Storage}
    (hs : n.storages.head? = some st) :
    (nodeLog g d k t n).filterMap (coefOf (.stor t g d st.name)) = storE g d k t st := by
  unfold nodeLog
  rw [List.filterMap_append, List.filterMap_append, List.filterMap_append, row_numVars,
    stor_addNode, row_objNode]
  simp only [List.append_nil, List.nil_append]
  unfold storLog storE
  cases hst : n.storages with
  | nil => rw [hst] at hs; simp at hs
  | cons a l =>
    rw [hst] at hs
    simp only [List.head?_cons, Option.some.injEq] at hs
    subst hs
    dsimp only
    split_ifs <;> simp [coefOf, List.filterMap_cons]

theorem stor_convLog (k t : ℕ) (c : Converter) (t' : ℕ) (g' d' name : String) :
    (convLog k t c).filterMap (coefOf (.stor t' g' d' name)) = [] := by
  apply filterMap_nil
  intro a ha
  simp only [convLog, convVars, convAdeq, convMix, List.mem_append, List.mem_map, List.mem_flatMap,
    List.mem_cons, List.not_mem_nil, or_false] at ha
  rcases ha with (((⟨_, _, h⟩ | rfl) | (rfl | ⟨_, _, rfl⟩)) | ⟨_, _, (rfl | rfl | rfl)⟩) | rfl
  · rcases srcVar_eq h with ⟨_, rfl⟩ | ⟨_, rfl⟩ <;> rfl
  all_goals simp [coefOf]

theorem mem_importLog {s : Study} {a : Cmd} (h : a ∈ importLog s) :
    ∃ t g d v, a = .setCoef (.adeq t g d) v 1 := by
  simp only [importLog, List.mem_flatMap, List.mem_map] at h
  obtain ⟨_, _, _, _, rfl⟩ := h
  exact ⟨_, _, _, _, rfl⟩

theorem stor_row {s : Study} (hi : StudyInv s) {g d : String} {net : InputNetwork}
    {n : InputNode} (hg : (g, net) ∈ s.networks) (hd : (d, n) ∈ net.nodes) {st : Storage}
    (hs : n.storages.head? = some st) {k t : ℕ} (ht : t < s.horizon) :
    (fullLog s k).filterMap (coefOf (.stor t g d st.name)) = storE g d k t st := by
  unfold fullLog
  have e0 : (importLog s).filterMap (coefOf (.stor t g d st.name)) = [] := by
    apply filterMap_nil
    intro a ha
    obtain ⟨_, _, _, _, rfl⟩ := mem_importLog ha
    simp [coefOf]
  have ec : ∀ t', (s.converters.flatMap fun p => convLog k t' p.2).filterMap
      (coefOf (.stor t g d st.name)) = [] := by
    intro t'
    rw [List.filterMap_flatMap, List.flatMap_eq_nil_iff]
    intro p _
    exact stor_convLog ..
  rw [List.filterMap_append, e0, List.append_nil, List.filterMap_flatMap, flatMap_range_single ht]
  · unfold timeLog
    rw [List.filterMap_append, ec, List.append_nil, List.filterMap_flatMap]
    simp only [List.filterMap_flatMap]
    rw [nodes_single hi hg hd
      (f := fun g' d' n' => (nodeLog g' d' k t n').filterMap (coefOf (.stor t g d st.name))),
      stor_nodeLog_self hs]
    intro g' d' n' h
    exact stor_nodeLog_ne (by simpa using h)
  · intro t' _ hne
    unfold timeLog
    rw [List.filterMap_append, ec, List.append_nil, List.filterMap_flatMap]
    simp only [List.filterMap_flatMap]
    rw [List.flatMap_eq_nil_iff]
    intro p _
    rw [List.flatMap_eq_nil_iff]
    intro q _
    exact stor_nodeLog_ne (by simp [hne])

theorem value_stor {s : Study} (hi : StudyInv s) {g d : String} {net : InputNetwork}
    {n : InputNode} (hg : (g, net) ∈ s.networks) (hd : (d, n) ∈ net.nodes) {st : Storage}
    (hs : n.storages.head? = some st) {k t : ℕ} (ht : t < s.horizon) (x : Var → ℚ) :
    value (coefs (fullLog s k) (.stor t g d st.name)) x =
      x (.cap t g d 0) + x (.fout t g d 0) - val st.eff k t * x (.fin t g d 0) -
        (if t = 0 then 0 else x (.cap (t - 1) g d 0)) := by
  unfold coefs
  rw [stor_row hi hg hd hs ht, value_ofList]
  · unfold storE
    split_ifs <;> simp [sumL] <;> ring
  · unfold storE
    split_ifs with h
    · simp
    · simp; omega

/-! ### Converter rows -/

theorem mix_nodeLog (g d : String) (k t : ℕ) (n : InputNode) (t' : ℕ) (c : String)
    (src : List String) : (nodeLog g d k t n).filterMap (coefOf (.mix t' c src)) = [] := by
  unfold nodeLog
  rw [List.filterMap_append, List.filterMap_append, List.filterMap_append, row_numVars,
    row_objNode]
  simp only [List.append_nil, List.nil_append]
  rw [List.append_eq_nil_iff]
  constructor
  · apply filterMap_nil
    intro a ha
    simp only [AdequacyBuilder.addNode, List.mem_append, List.mem_map, List.mem_flatMap,
      List.mem_cons, List.not_mem_nil, or_false] at ha
    rcases ha with (((rfl | ⟨_, _, rfl⟩) | ⟨_, _, rfl⟩) | ⟨_, _, (rfl | rfl)⟩) | ⟨_, _, rfl⟩ <;>
      simp [coefOf]
  · apply filterMap_nil
    intro a ha
    obtain ⟨st, _, ⟨q, rfl⟩ | ⟨v, c, rfl⟩⟩ := mem_storLog ha
    · rfl
    · simp [coefOf]

theorem mix_convLog_ne {k t : ℕ} {c : Converter} {t' : ℕ} {name : String} {src : List String}
    (h : t ≠ t' ∨ c.name ≠ name) : (convLog k t c).filterMap (coefOf (.mix t' name src)) = [] := by
  apply filterMap_nil
  intro a ha
  have hne : ∀ src', RowId.mix t c.name src' ≠ .mix t' name src := by
    intro src' e
    simp only [RowId.mix.injEq] at e
    rcases h with h | h
    · exact h e.1
    · exact h e.2.1
  simp only [convLog, convVars, convAdeq, convMix, List.mem_append, List.mem_map, List.mem_flatMap,
    List.mem_cons, List.not_mem_nil, or_false] at ha
  rcases ha with (((⟨_, _, h⟩ | rfl) | (rfl | ⟨_, _, rfl⟩)) | ⟨_, _, (rfl | rfl | rfl)⟩) | rfl
  · rcases srcVar_eq h with ⟨_, rfl⟩ | ⟨_, rfl⟩ <;> rfl
  all_goals simp [coefOf, hne]

theorem mix_convLog_self {k t : ℕ} {c : Converter} {q : List String × NumVal}
    (hn : (c.srcRatios.map Prod.fst).Nodup) (hq : q ∈ c.srcRatios) :
    (convLog k t c).filterMap (coefOf (.mix t c.name q.1)) =
      [(.convSrc t c.name q.1, val q.2 k t), (.convDest t c.name, -1)] := by
  unfold convLog
  have e1 : (convAdeq t c).filterMap (coefOf (.mix t c.name q.1)) = [] := by
    apply filterMap_nil
    intro a ha
    simp only [convAdeq, List.mem_cons, List.mem_map] at ha
    rcases ha with rfl | ⟨_, _, rfl⟩ <;> simp [coefOf]
  have e2 : [Cmd.setObj (Var.convDest t c.name) (fval c.cost k t)].filterMap
    (coefOf (.mix t c.name q.1)) = [] := rfl
  rw [List.filterMap_append, List.filterMap_append, List.filterMap_append, row_convVars, e1, e2,
    convMix, List.filterMap_flatMap, flatMap_single (fun p => p.1) hn hq]
  · simp [coefOf, List.filterMap_cons]
  · intro b _ hb
    have hb : ¬ b.1 = q.1 := hb
    simp [coefOf, List.filterMap_cons, hb]

theorem mix_row {s : Study} (hi : StudyInv s) {p : String × Converter} (hp : p ∈ s.converters)
    {q : List String × NumVal} (hq : q ∈ p.2.srcRatios) {k t : ℕ} (ht : t < s.horizon) :
    (fullLog s k).filterMap (coefOf (.mix t p.1 q.1)) =
      [(.convSrc t p.1 q.1, val q.2 k t), (.convDest t p.1, -1)] := by
  unfold fullLog
  have e0 : (importLog s).filterMap (coefOf (.mix t p.1 q.1)) = [] := by
    apply filterMap_nil
    intro a ha
    obtain ⟨_, _, _, _, rfl⟩ := mem_importLog ha
    simp [coefOf]
  have en : ∀ t', (s.networks.flatMap fun a => a.2.nodes.flatMap fun b =>
      nodeLog a.1 b.1 k t' b.2).filterMap (coefOf (.mix t p.1 q.1)) = [] := by
    intro t'
    rw [List.filterMap_flatMap, List.flatMap_eq_nil_iff]
    intro a _
    rw [List.filterMap_flatMap, List.flatMap_eq_nil_iff]
    intro b _
    exact mix_nodeLog ..
  rw [List.filterMap_append, e0, List.append_nil, List.filterMap_flatMap, flatMap_range_single ht]
  · unfold timeLog
    rw [List.filterMap_append, en, List.nil_append, List.filterMap_flatMap,
      flatMap_single (fun p => p.1) hi.names.converters hp]
    · rw [← (hi.convs p hp).name]
      exact mix_convLog_self (hi.names.sources p hp) hq
    · intro b hb hne
      exact mix_convLog_ne (.inr (by rw [(hi.convs b hb).name]; exact hne))
  · intro t' _ hne
    unfold timeLog
    rw [List.filterMap_append, en, List.nil_append, List.filterMap_flatMap,
      List.flatMap_eq_nil_iff]
    intro b _
    exact mix_convLog_ne (.inl hne)

theorem value_mix {s : Study} (hi : StudyInv s) {p : String × Converter} (hp : p ∈ s.converters)
    {q : List String × NumVal} (hq : q ∈ p.2.srcRatios) {k t : ℕ} (ht : t < s.horizon)
    (x : Var → ℚ) : value (coefs (fullLog s k) (.mix t p.1 q.1)) x =
      val q.2 k t * x (.convSrc t p.1 q.1) - x (.convDest t p.1) := by
  unfold coefs
  rw [mix_row hi hp hq ht, value_ofList]
  · simp [sumL]; ring
  · simp

/-! ### Objective -/

def objNode (g d : String) (k t : ℕ) (n : InputNode) : List (Var × ℚ) :=
  (n.consumptions.zipIdx.map fun p => (.lol t g d p.2, val p.1.cost k t)) ++
  (n.productions.zipIdx.map fun p => (.prod t g d p.2, val p.1.cost k t)) ++
  (n.storages.zipIdx.map fun p => (.cap t g d p.2, val p.1.cost k t)) ++
  (n.links.zipIdx.map fun p => (.link t g d p.2, val p.1.cost k t))

theorem obj_nodeLog (g d : String) (k t : ℕ) (n : InputNode) :
    (nodeLog g d k t n).filterMap objOf = objNode g d k t n := by
  unfold nodeLog
  have e1 : (lpNodeOf g d k t n).numVars.filterMap objOf = [] := by
    apply filterMap_nil
    intro a ha
    simp only [LPNode.numVars, List.mem_append, List.mem_map, List.mem_flatMap, List.mem_cons,
      List.not_mem_nil, or_false] at ha
    rcases ha with ((⟨_, _, rfl⟩ | ⟨_, _, rfl⟩) | ⟨_, _, (rfl | rfl | rfl)⟩) | ⟨_, _, rfl⟩ <;> rfl
  have e2 : (AdequacyBuilder.addNode g d (lpNodeOf g d k t n) t).filterMap objOf = [] := by
    apply filterMap_nil
    intro a ha
    simp only [AdequacyBuilder.addNode, List.mem_append, List.mem_map, List.mem_flatMap,
      List.mem_cons, List.not_mem_nil, or_false] at ha
    rcases ha with (((rfl | ⟨_, _, rfl⟩) | ⟨_, _, rfl⟩) | ⟨_, _, (rfl | rfl)⟩) | ⟨_, _, rfl⟩ <;> rfl
  have e3 : (storLog g d k t n).filterMap objOf = [] := by
    apply filterMap_nil
    intro a ha
    obtain ⟨st, _, ⟨q, rfl⟩ | ⟨v, c, rfl⟩⟩ := mem_storLog ha <;> rfl
  rw [List.filterMap_append, List.filterMap_append, List.filterMap_append, e1, e2, e3]
  simp [ObjectiveBuilder.addNode, objNode, lpNodeOf, List.filterMap_append, List.filterMap_map,
    Function.comp_def, objOf]

theorem obj_convLog (k t : ℕ) (c : Converter) :
    (convLog k t c).filterMap objOf = [(.convDest t c.name, fval c.cost k t)] := by
  unfold convLog
  have e : (convVars k t c ++ convAdeq t c ++ convMix k t c).filterMap objOf = [] := by
    apply filterMap_nil
    intro a ha
    simp only [convVars, convAdeq, convMix, List.mem_append, List.mem_map, List.mem_flatMap,
      List.mem_cons, List.not_mem_nil, or_false] at ha
    rcases ha with ((⟨_, _, h⟩ | rfl) | (rfl | ⟨_, _, rfl⟩)) | ⟨_, _, (rfl | rfl | rfl)⟩
    · rcases srcVar_eq h with ⟨_, rfl⟩ | ⟨_, rfl⟩ <;> rfl
    all_goals rfl
  rw [List.filterMap_append, e]; rfl

def objTime (s : Study) (k t : ℕ) : List (Var × ℚ) :=
  (s.networks.flatMap fun p => p.2.nodes.flatMap fun q => objNode p.1 q.1 k t q.2) ++
    s.converters.flatMap fun p => [(.convDest t p.2.name, fval p.2.cost k t)]

theorem obj_fullLog (s : Study) (k : ℕ) :
    (fullLog s k).filterMap objOf = (List.range s.horizon).flatMap (objTime s k) := by
  unfold fullLog
  have e0 : (importLog s).filterMap objOf = [] := by
    apply filterMap_nil
    intro a ha
    obtain ⟨_, _, _, _, rfl⟩ := mem_importLog ha
    rfl
  rw [List.filterMap_append, e0, List.append_nil, List.filterMap_flatMap]
  congr 1
  funext t
  unfold timeLog objTime
  rw [List.filterMap_append, List.filterMap_flatMap, List.filterMap_flatMap]
  simp only [List.filterMap_flatMap, obj_nodeLog, obj_convLog]

theorem objNode_mem {g d : String} {k t : ℕ} {n : InputNode} {v : Var}
    (h : v ∈ (objNode g d k t n).map Prod.fst) :
    v.time = t ∧ v.net = g ∧ v.node = d ∧ ∀ c, v ≠ .convDest t c := by
  unfold objNode at h
  simp only [List.map_append, List.map_map, Function.comp_def, List.mem_append, List.mem_map] at h
  rcases h with ((⟨p, hp, rfl⟩ | ⟨p, hp, rfl⟩) | ⟨p, hp, rfl⟩) | ⟨p, hp, rfl⟩ <;>
    exact ⟨rfl, rfl, rfl, by simp⟩

theorem objNode_nodup (g d : String) (k t : ℕ) (n : InputNode) :
    ((objNode g d k t n).map Prod.fst).Nodup := by
  unfold objNode
  simp only [List.map_append, List.map_map, Function.comp_def]
  apply nodup_append_of
  · apply nodup_append_of
    · apply nodup_append_of
      · exact zipIdx_nodup _ (fun i => Var.lol t g d i) (by intro a b h; simpa using h)
      · exact zipIdx_nodup _ (fun i => Var.prod t g d i) (by intro a b h; simpa using h)
      · intro a ha hb
        simp only [List.mem_map] at ha hb
        obtain ⟨_, _, rfl⟩ := ha
        obtain ⟨_, _, h⟩ := hb
        cases h
    · exact zipIdx_nodup _ (fun i => Var.cap t g d i) (by intro a b h; simpa using h)
    · intro a ha hb
      simp only [List.mem_append, List.mem_map] at ha hb
      rcases ha with ⟨_, _, rfl⟩ | ⟨_, _, rfl⟩ <;> obtain ⟨_, _, h⟩ := hb <;> cases h
  · exact zipIdx_nodup _ (fun i => Var.link t g d i) (by intro a b h; simpa using h)
  · intro a ha hb
    simp only [List.mem_append, List.mem_map] at ha hb
    rcases ha with (⟨_, _, rfl⟩ | ⟨_, _, rfl⟩) | ⟨_, _, rfl⟩ <;> obtain ⟨_, _, h⟩ := hb <;> cases h

theorem objAll_nodup {s : Study} (hi : StudyInv s) (k : ℕ) :
    (((List.range s.horizon).flatMap (objTime s k)).map Prod.fst).Nodup := by
  rw [map_fst_flatMap]
  have hconv : ∀ t, ((s.converters.flatMap fun p =>
      [(Var.convDest t p.2.name, fval p.2.cost k t)]).map Prod.fst).Nodup := by
    intro t
    rw [map_fst_flatMap]
    apply nodup_flatMap_key (fun p => p.1) Var.conv hi.names.converters
    · intro p _; simp
    · intro p hp v hv
      simp only [List.map_cons, List.map_nil, List.mem_singleton] at hv
      subst hv
      exact (hi.convs p hp).name
  apply nodup_flatMap_key (fun t => t) Var.time
  · simpa using List.nodup_range
  · intro t _
    unfold objTime
    rw [List.map_append]
    apply nodup_append_of
    · rw [map_fst_flatMap]
      apply nodup_flatMap_key (fun p => p.1) Var.net hi.names.networks
      · intro p hp
        rw [map_fst_flatMap]
        apply nodup_flatMap_key (fun q => q.1) Var.node (hi.names.nodes p hp)
        · intro q _; exact objNode_nodup ..
        · intro q _ v hv; exact (objNode_mem hv).2.2.1
      · intro p _ v hv
        rw [map_fst_flatMap] at hv
        obtain ⟨q, _, hv⟩ := List.mem_flatMap.mp hv
        exact (objNode_mem hv).2.1
    · exact hconv t
    · intro v hv hv'
      rw [map_fst_flatMap] at hv hv'
      obtain ⟨p, _, hv⟩ := List.mem_flatMap.mp hv
      rw [map_fst_flatMap] at hv
      obtain ⟨q, _, hv⟩ := List.mem_flatMap.mp hv
      obtain ⟨p', _, hv'⟩ := List.mem_flatMap.mp hv'
      simp only [List.map_cons, List.map_nil, List.mem_singleton] at hv'
      exact (objNode_mem hv).2.2.2 _ hv'
  · intro t _ v hv
    unfold objTime at hv
    rw [List.map_append, List.mem_append, map_fst_flatMap, map_fst_flatMap] at hv
    rcases hv with hv | hv
    · obtain ⟨p, _, hv⟩ := List.mem_flatMap.mp hv
      rw [map_fst_flatMap] at hv
      obtain ⟨q, _, hv⟩ := List.mem_flatMap.mp hv
      exact (objNode_mem hv).1
    · obtain ⟨p', _, hv⟩ := List.mem_flatMap.mp hv
      simp only [List.map_cons, List.map_nil, List.mem_singleton] at hv
      subst hv; rfl

theorem objective_eq {s : Study} (hi : StudyInv s) (k : ℕ) (x : Var → ℚ) :
    objective (fullLog s k) x = cost s k (ofVars x) := by
  unfold objective objCoefs
  rw [obj_fullLog, value_ofList _ _ (objAll_nodup hi k), sumL_flatMap]
  unfold cost
  apply sumL_congr
  intro t _
  unfold objTime
  rw [sumL_append, sumL_flatMap, sumL_flatMap]
  congr 1
  · apply sumL_congr
    intro p _
    rw [sumL_flatMap]
    apply sumL_congr
    intro q _
    unfold objNode nodeCost
    simp only [sumL_append, sumL_map, sumI_eq, ofVars]
  · apply sumL_congr
    intro p hp
    simp [sumL, ofVars, (hi.convs p hp).name]

/-! ### Feasibility -/

theorem mem_timeLog_node {s : Study} {g d : String} {n : InputNode} (h : HasNode s g d n) {k t : ℕ}
    (ht : t < s.horizon) {a : Cmd} (ha : a ∈ nodeLog g d k t n) : a ∈ fullLog s k := by
  obtain ⟨net, hg, hd⟩ := h
  apply List.mem_append_left
  refine List.mem_flatMap.mpr ⟨t, by simpa using ht, List.mem_append_left _ ?_⟩
  exact List.mem_flatMap.mpr ⟨_, hg, List.mem_flatMap.mpr ⟨_, hd, ha⟩⟩

theorem mem_timeLog_conv {s : Study} {p : String × Converter} (h : p ∈ s.converters) {k t : ℕ}
    (ht : t < s.horizon) {a : Cmd} (ha : a ∈ convLog k t p.2) : a ∈ fullLog s k := by
  apply List.mem_append_left
  refine List.mem_flatMap.mpr ⟨t, by simpa using ht, List.mem_append_right _ ?_⟩
  exact List.mem_flatMap.mpr ⟨_, h, ha⟩

theorem mem_fullLog {s : Study} {k : ℕ} {a : Cmd} (h : a ∈ fullLog s k) :
    (∃ t < s.horizon, ∃ g d n, HasNode s g d n ∧ a ∈ nodeLog g d k t n) ∨
    (∃ t < s.horizon, ∃ p ∈ s.converters, a ∈ convLog k t p.2) ∨
    ∃ t g d v, a = .setCoef (.adeq t g d) v 1 := by
  unfold fullLog at h
  rw [List.mem_append] at h
  rcases h with h | h
  · obtain ⟨t, ht, h⟩ := List.mem_flatMap.mp h
    have ht : t < s.horizon := by simpa using ht
    unfold timeLog at h
    rw [List.mem_append] at h
    rcases h with h | h
    · obtain ⟨p, hp, h⟩ := List.mem_flatMap.mp h
      obtain ⟨q, hq, h⟩ := List.mem_flatMap.mp h
      exact .inl ⟨t, ht, p.1, q.1, q.2, ⟨p.2, hp, hq⟩, h⟩
    · obtain ⟨p, hp, h⟩ := List.mem_flatMap.mp h
      exact .inr (.inl ⟨t, ht, p, hp, h⟩)
  · exact .inr (.inr (mem_importLog h))

theorem nodeLog_numVar {g d : String} {k t : ℕ} {n : InputNode} {v : Var} {lb ub : ℚ}
    (h : Cmd.numVar v lb ub ∈ nodeLog g d k t n) :
    Cmd.numVar v lb ub ∈ (lpNodeOf g d k t n).numVars := by
  unfold nodeLog at h
  simp only [List.mem_append] at h
  rcases h with ((h | h) | h) | h
  · exact h
  · simp [AdequacyBuilder.addNode] at h
  · obtain ⟨_, _, ⟨_, h⟩ | ⟨_, _, h⟩⟩ := mem_storLog h <;> cases h
  · simp [ObjectiveBuilder.addNode] at h

theorem mem_zipIdx_iff {α : Type} {l : List α} {a : α} {i : ℕ} :
    (a, i) ∈ l.zipIdx ↔ l[i]? = some a := List.mk_mem_zipIdx_iff_getElem?

theorem load_eq (g d : String) (k t : ℕ) (n : InputNode) :
    ((lpNodeOf g d k t n).consumptions.map (·.quantity)).sum =
      sumI n.consumptions fun c _ => val c.quantity k t := by
  simp only [lpNodeOf, List.map_map, sumI]; rfl

theorem nodeLog_constraint {g d : String} {k t : ℕ} {n : InputNode} {r : RowId} {lo hi : ℚ}
    (h : Cmd.constraint r lo hi ∈ nodeLog g d k t n) :
    (r = .adeq t g d ∧ lo = (sumI n.consumptions fun c _ => val c.quantity k t) ∧ hi = lo) ∨
    ∃ st, n.storages.head? = some st ∧ r = .stor t g d st.name ∧ hi = lo ∧
      lo = if t = 0 then st.initCapacity else 0 := by
  unfold nodeLog at h
  simp only [List.mem_append] at h
  rcases h with ((h | h) | h) | h
  · simp [LPNode.numVars] at h
  · unfold AdequacyBuilder.addNode at h
    rw [load_eq] at h
    simp at h
    obtain ⟨rfl, rfl, rfl⟩ := h
    exact .inl ⟨rfl, rfl, rfl⟩
  · right
    unfold storLog at h
    cases hst : n.storages with
    | nil => rw [hst] at h; simp at h
    | cons st l =>
      rw [hst] at h
      refine ⟨st, rfl, ?_⟩
      dsimp only at h
      split_ifs at h with ht
      · simp at h; obtain ⟨rfl, rfl, rfl⟩ := h; simp [ht]
      · simp at h; obtain ⟨rfl, rfl, rfl⟩ := h; simp [ht]
  · simp [ObjectiveBuilder.addNode] at h

theorem convLog_numVar {k t : ℕ} {c : Converter} {v : Var} {lb ub : ℚ}
    (h : Cmd.numVar v lb ub ∈ convLog k t c) :
    (∃ q ∈ c.srcRatios, v = .convSrc t c.name q.1 ∧ lb = 0 ∧ val q.2 k t ≠ 0 ∧
      ub = fval c.max k t / val q.2 k t) ∨
    (v = .convDest t c.name ∧ lb = 0 ∧ ub = fval c.max k t) := by
  simp only [convLog, convVars, convAdeq, convMix, List.mem_append, List.mem_map, List.mem_flatMap,
    List.mem_cons, List.not_mem_nil, or_false] at h
  rcases h with (((⟨q, hq, h⟩ | h) | (h | ⟨_, _, h⟩)) | ⟨_, _, (h | h | h)⟩) | h
  · rcases srcVar_eq h with ⟨_, h⟩ | ⟨hz, h⟩ <;> cases h
    exact .inl ⟨q, hq, rfl, rfl, hz, rfl⟩
  all_goals cases h
  exact .inr ⟨rfl, rfl, rfl⟩

theorem nodeLog_numVarInf {g d : String} {k t : ℕ} {n : InputNode} {v : Var} {lb : ℚ} {pos : Bool}
    (h : Cmd.numVarInf v lb pos ∈ nodeLog g d k t n) : False := by
  unfold nodeLog at h
  simp only [List.mem_append] at h
  rcases h with ((h | h) | h) | h
  · simp [LPNode.numVars] at h
  · simp [AdequacyBuilder.addNode] at h
  · obtain ⟨_, _, ⟨_, h⟩ | ⟨_, _, h⟩⟩ := mem_storLog h <;> cases h
  · simp [ObjectiveBuilder.addNode] at h

theorem convLog_numVarInf {k t : ℕ} {c : Converter} {v : Var} {lb : ℚ} {pos : Bool}
    (h : Cmd.numVarInf v lb pos ∈ convLog k t c) :
    ∃ q ∈ c.srcRatios, v = .convSrc t c.name q.1 ∧ lb = 0 ∧ val q.2 k t = 0 ∧
      pos = decide (0 ≤ fval c.max k t) := by
  simp only [convLog, convVars, convAdeq, convMix, List.mem_append, List.mem_map, List.mem_flatMap,
    List.mem_cons, List.not_mem_nil, or_false] at h
  rcases h with (((⟨q, hq, h⟩ | h) | (h | ⟨_, _, h⟩)) | ⟨_, _, (h | h | h)⟩) | h
  · rcases srcVar_eq h with ⟨hz, h⟩ | ⟨_, h⟩ <;> cases h
    exact ⟨q, hq, rfl, rfl, hz, rfl⟩
  all_goals cases h

theorem convLog_constraint {k t : ℕ} {c : Converter} {r : RowId} {lo hi : ℚ}
    (h : Cmd.constraint r lo hi ∈ convLog k t c) :
    ∃ q ∈ c.srcRatios, r = .mix t c.name q.1 ∧ lo = 0 ∧ hi = 0 := by
  simp only [convLog, convVars, convAdeq, convMix, List.mem_append, List.mem_map, List.mem_flatMap,
    List.mem_cons, List.not_mem_nil, or_false] at h
  rcases h with (((⟨q, hq, h⟩ | h) | (h | ⟨_, _, h⟩)) | ⟨q, hq, (h | h | h)⟩) | h
  · rcases srcVar_eq h with ⟨_, h⟩ | ⟨_, h⟩ <;> cases h
  all_goals cases h
  exact ⟨q, hq, rfl, rfl, rfl⟩

theorem evolves_iff (k : ℕ) (x : Var → ℚ) (g d : String) (c : Storage) (t : ℕ) :
    Evolves k (ofVars x) g d 0 c t ↔
      x (.cap t g d 0) + x (.fout t g d 0) - val c.eff k t * x (.fin t g d 0) -
        (if t = 0 then 0 else x (.cap (t - 1) g d 0)) = if t = 0 then c.initCapacity else 0 := by
  unfold Evolves
  cases t with
  | zero => simp only [levelBefore, ofVars, if_true]; constructor <;> intro h <;> linarith
  | succ t =>
    simp only [levelBefore, ofVars, Nat.succ_ne_zero, if_false, Nat.add_sub_cancel]
    constructor <;> intro h <;> linarith

theorem bounds_of_inBounds {s : Study} (hi : StudyInv s) {k : ℕ} {x : Var → ℚ}
    (hv : Cmd.InBounds (fullLog s k) x) : Bounds s k (ofVars x) := by
  refine ⟨?_, ?_, ?_, ?_, ?_, ?_⟩
  · intro g d n hn i c hi t ht
    refine hv.1 _ _ _ (mem_timeLog_node hn ht ?_)
    refine List.mem_append_left _ (List.mem_append_left _ (List.mem_append_left _ ?_))
    simp only [LPNode.numVars, lpNodeOf, List.mem_append, List.map_map, List.mem_map]
    exact .inl (.inl (.inl ⟨(c, i), mem_zipIdx_iff.mpr hi, rfl⟩))
  · intro g d n hn i c hi t ht
    refine hv.1 _ _ _ (mem_timeLog_node hn ht ?_)
    refine List.mem_append_left _ (List.mem_append_left _ (List.mem_append_left _ ?_))
    simp only [LPNode.numVars, lpNodeOf, List.mem_append, List.map_map, List.mem_map]
    exact .inl (.inl (.inr ⟨(c, i), mem_zipIdx_iff.mpr hi, rfl⟩))
  · intro g d n hn i c hi t ht
    have key : ∀ a, a ∈ [Cmd.numVar (.cap t g d i) 0 (val c.capacity k t),
        .numVar (.fin t g d i) 0 (val c.flowIn k t), .numVar (.fout t g d i) 0 (val c.flowOut k t)] →
        a ∈ fullLog s k := by
      intro a ha
      refine mem_timeLog_node hn ht ?_
      refine List.mem_append_left _ (List.mem_append_left _ (List.mem_append_left _ ?_))
      simp only [LPNode.numVars, lpNodeOf, List.mem_append, List.flatMap_map, List.mem_flatMap]
      exact .inl (.inr ⟨(c, i), mem_zipIdx_iff.mpr hi, ha⟩)
    exact ⟨hv.1 _ _ _ (key _ (by simp)), hv.1 _ _ _ (key _ (by simp)), hv.1 _ _ _ (key _ (by simp))⟩
  · intro g d n hn i c hi t ht
    refine hv.1 _ _ _ (mem_timeLog_node hn ht ?_)
    refine List.mem_append_left _ (List.mem_append_left _ (List.mem_append_left _ ?_))
    simp only [LPNode.numVars, lpNodeOf, List.mem_append, List.map_map, List.mem_map]
    exact .inr ⟨(c, i), mem_zipIdx_iff.mpr hi, rfl⟩
  · intro p hp g d r hr t ht
    have hm : srcVar (.convSrc t p.1 [g, d]) (fval p.2.max k t) (val r k t) ∈ fullLog s k := by
      refine mem_timeLog_conv hp ht ?_
      refine List.mem_append_left _ (List.mem_append_left _ (List.mem_append_left _ ?_))
      rw [← (hi.convs p hp).name]
      exact List.mem_append_left _ (List.mem_map.mpr ⟨_, hr, rfl⟩)
    rcases srcVar_cases (.convSrc t p.1 [g, d]) (fval p.2.max k t) (val r k t) with ⟨hz, e⟩ | ⟨hz, e⟩ <;> rw [e] at hm
    · exact ⟨(hv.2 _ _ _ hm).1, fun h => absurd hz h⟩
    · exact ⟨(hv.1 _ _ _ hm).1, fun _ => (hv.1 _ _ _ hm).2⟩
  · intro p hp t ht
    refine hv.1 _ _ _ (mem_timeLog_conv hp ht ?_)
    refine List.mem_append_left _ (List.mem_append_left _ (List.mem_append_left _ ?_))
    rw [← (hi.convs p hp).name]
    exact List.mem_append_right _ (by simp)

theorem feasible_iff {s : Study} (hi : StudyInv s) (k : ℕ) (x : Var → ℚ) :
    Cmd.Feasible (fullLog s k) x ↔ CodeFeasible s k (ofVars x) := by
  constructor
  · rintro ⟨hv, hc⟩
    refine ⟨bounds_of_inBounds hi hv, ?_, ?_, ?_⟩
    · intro g d n hn t ht
      have hm : Cmd.constraint (.adeq t g d) (sumI n.consumptions fun c _ => val c.quantity k t)
          (sumI n.consumptions fun c _ => val c.quantity k t) ∈ fullLog s k := by
        refine mem_timeLog_node hn ht ?_
        refine List.mem_append_left _ (List.mem_append_left _ (List.mem_append_right _ ?_))
        unfold AdequacyBuilder.addNode
        rw [load_eq]
        simp
      have := hc _ _ _ hm
      rw [value_adeq hi hn ht] at this
      linarith [this.1, this.2]
    · intro g d n hn c hs t ht
      have hm : Cmd.constraint (.stor t g d c.name) (if t = 0 then c.initCapacity else 0)
          (if t = 0 then c.initCapacity else 0) ∈ fullLog s k := by
        refine mem_timeLog_node hn ht ?_
        refine List.mem_append_left _ (List.mem_append_right _ ?_)
        unfold storLog
        cases hst : n.storages with
        | nil => rw [hst] at hs; simp at hs
        | cons a l =>
          rw [hst] at hs
          simp only [List.head?_cons, Option.some.injEq] at hs
          subst hs
          dsimp only
          split_ifs <;> simp
      have := hc _ _ _ hm
      obtain ⟨net, hg, hd⟩ := hn
      rw [value_stor hi hg hd hs ht] at this
      rw [evolves_iff]
      linarith [this.1, this.2]
    · intro p hp g d r hr t ht
      have hm : Cmd.constraint (.mix t p.1 [g, d]) 0 0 ∈ fullLog s k := by
        refine mem_timeLog_conv hp ht ?_
        refine List.mem_append_left _ (List.mem_append_right _ ?_)
        rw [← (hi.convs p hp).name]
        exact List.mem_flatMap.mpr ⟨_, hr, by simp⟩
      have := hc _ _ _ hm
      rw [value_mix hi hp hr ht] at this
      simp only [ofVars]
      linarith [this.1, this.2]
  · intro h
    refine ⟨⟨?_, ?_⟩, ?_⟩
    · intro v lb ub hm
      rcases mem_fullLog hm with ⟨t, ht, g, d, n, hn, hm⟩ | ⟨t, ht, p, hp, hm⟩ | ⟨_, _, _, _, e⟩
      · have hm := nodeLog_numVar hm
        simp only [LPNode.numVars, lpNodeOf, List.mem_append, List.map_map, List.mem_map,
          List.flatMap_map, List.mem_flatMap, List.mem_cons, List.not_mem_nil, or_false] at hm
        rcases hm with ((⟨p, hp, e⟩ | ⟨p, hp, e⟩) | ⟨p, hp, (e | e | e)⟩) | ⟨p, hp, e⟩ <;> cases e
        · exact h.bounds.consumptions g d n hn _ _ (mem_zipIdx_iff.mp hp) t ht
        · exact h.bounds.productions g d n hn _ _ (mem_zipIdx_iff.mp hp) t ht
        · exact (h.bounds.storages g d n hn _ _ (mem_zipIdx_iff.mp hp) t ht).1
        · exact (h.bounds.storages g d n hn _ _ (mem_zipIdx_iff.mp hp) t ht).2.1
        · exact (h.bounds.storages g d n hn _ _ (mem_zipIdx_iff.mp hp) t ht).2.2
        · exact h.bounds.links g d n hn _ _ (mem_zipIdx_iff.mp hp) t ht
      · have hname := (hi.convs p hp).name
        rcases convLog_numVar hm with ⟨q, hq, rfl, rfl, hz, rfl⟩ | ⟨rfl, rfl, rfl⟩
        · obtain ⟨g, d, _, e, _⟩ := (hi.convs p hp).sources q.1 (List.mem_map.mpr ⟨q, hq, rfl⟩)
          have := h.bounds.convSrc p hp g d q.2 (by rw [← e]; exact hq) t ht
          rw [hname, e]
          exact ⟨this.1, this.2 hz⟩
        · rw [hname]; exact h.bounds.convDest p hp t ht
      · cases e
    · intro v lb pos hm
      rcases mem_fullLog hm with ⟨t, ht, g, d, n, hn, hm⟩ | ⟨t, ht, p, hp, hm⟩ | ⟨_, _, _, _, e⟩
      · exact (nodeLog_numVarInf hm).elim
      · have hname := (hi.convs p hp).name
        obtain ⟨q, hq, rfl, rfl, hz, rfl⟩ := convLog_numVarInf hm
        obtain ⟨g, d, _, e, _⟩ := (hi.convs p hp).sources q.1 (List.mem_map.mpr ⟨q, hq, rfl⟩)
        have := h.bounds.convSrc p hp g d q.2 (by rw [← e]; exact hq) t ht
        have h2 := h.bounds.convDest p hp t ht
        rw [hname, e]
        exact ⟨this.1, decide_eq_true (le_trans h2.1 h2.2)⟩
      · cases e
    · intro r lo hi' hm
      rcases mem_fullLog hm with ⟨t, ht, g, d, n, hn, hm⟩ | ⟨t, ht, p, hp, hm⟩ | ⟨_, _, _, _, e⟩
      · rcases nodeLog_constraint hm with ⟨rfl, rfl, rfl⟩ | ⟨st, hs, rfl, rfl, rfl⟩
        · rw [value_adeq hi hn ht]
          have := h.balance g d n hn t ht
          constructor <;> linarith
        · have := (evolves_iff _ _ _ _ _ _).mp (h.storages g d n hn st hs t ht)
          obtain ⟨net, hg, hd⟩ := hn
          rw [value_stor hi hg hd hs ht]
          constructor <;> linarith
      · obtain ⟨q, hq, rfl, rfl, rfl⟩ := convLog_constraint hm
        rw [(hi.convs p hp).name, value_mix hi hp hq ht]
        obtain ⟨g, d, _, e, _⟩ := (hi.convs p hp).sources q.1 (List.mem_map.mpr ⟨q, hq, rfl⟩)
        have := h.ratios p hp g d q.2 (by rw [← e]; exact hq) t ht
        simp only [ofVars] at this
        rw [e]
        constructor <;> linarith
      · cases e

end Hadar
