import Verif.Proofs.LPBuild
import Verif.Proofs.Json

/-!
# The result of the optimizer, in closed form
-/

namespace Hadar

open Spec

theorem length_cells (n h : ℕ) (f : ℕ → ℕ → ℚ) :
    ((List.range n).flatMap fun i => (List.range h).map (f i)).length = n * h := by
  induction n with
  | zero => simp
  | succ n ih =>
    rw [List.range_succ, List.flatMap_append, List.length_append, ih]
    simp; ring

/-- the 2-D array with given cells -/
def ofCells (n h : ℕ) (f : ℕ → ℕ → ℚ) : NdArray :=
  ⟨[n, h], (List.range n).flatMap fun i => (List.range h).map (f i), by
    rw [length_cells]; simp⟩

theorem getElem?_cells {n h : ℕ} (f : ℕ → ℕ → ℚ) {i j : ℕ} (hi : i < n) (hj : j < h) :
    ((List.range n).flatMap fun i => (List.range h).map (f i))[i * h + j]? = some (f i j) := by
  induction n with
  | zero => omega
  | succ n ih =>
    rw [List.range_succ, List.flatMap_append]
    by_cases hin : i < n
    · rw [List.getElem?_append_left, ih hin]
      rw [length_cells]
      exact idx_lt hin hj
    · have : i = n := by omega
      subst this
      rw [List.getElem?_append_right (by rw [length_cells]; omega), length_cells]
      simp [hj]

theorem cells_ext {n h : ℕ} {l l' : List ℚ} (hl : l.length = n * h) (hl' : l'.length = n * h)
    (H : ∀ i < n, ∀ j < h, l[i * h + j]? = l'[i * h + j]?) : l = l' := by
  apply List.ext_getElem?
  intro m
  by_cases hm : m < n * h
  · have hh : 0 < h := by
      rcases Nat.eq_zero_or_pos h with rfl | h0
      · simp at hm
      · exact h0
    have := H (m / h) (Nat.div_lt_of_lt_mul (by rw [Nat.mul_comm]; exact hm)) (m % h)
      (Nat.mod_lt _ hh)
    rwa [Nat.mul_comm, Nat.div_add_mod] at this
  · rw [List.getElem?_eq_none (by omega), List.getElem?_eq_none (by omega)]

theorem ofCells_congr {n h : ℕ} {f g : ℕ → ℕ → ℚ} (H : ∀ i < n, ∀ j < h, f i j = g i j) :
    ofCells n h f = ofCells n h g := by
  unfold ofCells
  congr 1
  apply List.flatMap_congr
  intro i hi
  apply List.map_congr_left
  intro j hj
  exact H i (by simpa using hi) j (by simpa using hj)

theorem zeros_eq (n h : ℕ) : NdArray.zeros n h = ofCells n h fun _ _ => 0 := by
  unfold NdArray.zeros ofCells
  congr 1
  apply cells_ext (n := n) (h := h) (by simp) (length_cells ..)
  intro i hi j hj
  rw [getElem?_cells _ hi hj]
  have := idx_lt hi hj
  simp [this]

theorem idx_inj {h i j i' j' : ℕ} (hj : j < h) (hj' : j' < h) (e : i * h + j = i' * h + j') :
    i = i' ∧ j = j' := by
  have h0 : 0 < h := by omega
  have e1 : (i * h + j) / h = i := by
    rw [Nat.mul_comm, Nat.mul_add_div h0, Nat.div_eq_of_lt hj]; omega
  have e2 : (i' * h + j') / h = i' := by
    rw [Nat.mul_comm, Nat.mul_add_div h0, Nat.div_eq_of_lt hj']; omega
  have : i = i' := by rw [← e1, ← e2, e]
  subst this
  omega

theorem set2_ofCells {n h i j : ℕ} (f : ℕ → ℕ → ℚ) (v : ℚ) (hi : i < n) (hj : j < h) :
    (ofCells n h f).set2 i j v =
      .ok (ofCells n h fun i' j' => if i' = i ∧ j' = j then v else f i' j') := by
  unfold NdArray.set2 ofCells
  dsimp only
  rw [if_pos ⟨hi, hj⟩]
  congr 2
  apply cells_ext (n := n) (h := h) (by rw [List.length_set, length_cells]) (length_cells ..)
  intro i' hi' j' hj'
  rw [getElem?_cells _ hi' hj', List.getElem?_set, getElem?_cells _ hi' hj', length_cells]
  have hlt := idx_lt hi hj
  by_cases e : i * h + j = i' * h + j'
  · obtain ⟨rfl, rfl⟩ := idx_inj hj hj' e
    simp [hlt]
  · rw [if_neg e, if_neg]
    rintro ⟨rfl, rfl⟩
    exact e rfl

theorem cell_ofCells {n h i j : ℕ} (f : ℕ → ℕ → ℚ) (hi : i < n) (hj : j < h) :
    cell (ofCells n h f) i j = f i j := by
  unfold cell NdArray.get2 ofCells
  dsimp only
  rw [NdArray.axisIndex_nat, NdArray.axisIndex_nat, if_pos hi, if_pos hj]
  simp only [bind, Except.bind]
  rw [getElem?_cells _ hi hj]

/-! ### Which cells are already written -/

inductive Done where
  | node (g d : String) (k t : ℕ)
  | src (c : String) (s : List String) (k t : ℕ)
  | dest (c : String) (k t : ℕ)
  deriving DecidableEq

def gate (D : List Done) (id : ℕ → ℕ → Done) (f : ℕ → ℕ → ℚ) : ℕ → ℕ → ℚ :=
  fun k t => if id k t ∈ D then f k t else 0

/-- values of the variables, per scenario -/
abbrev Vals : Type := ℕ → Var → ℚ

def nodeOn (D : List Done) (N H : ℕ) (X : Vals) (g d : String) (n : InputNode) : OutputNode where
  consumptions := n.consumptions.zipIdx.map fun p =>
    ⟨ofCells N H (gate D (.node g d) fun k t => val p.1.quantity k t - X k (.lol t g d p.2)),
      p.1.name⟩
  productions := n.productions.zipIdx.map fun p =>
    ⟨p.1.name, ofCells N H (gate D (.node g d) fun k t => X k (.prod t g d p.2))⟩
  storages := n.storages.zipIdx.map fun p =>
    ⟨p.1.name, ofCells N H (gate D (.node g d) fun k t => X k (.cap t g d p.2)),
      ofCells N H (gate D (.node g d) fun k t => X k (.fin t g d p.2)),
      ofCells N H (gate D (.node g d) fun k t => X k (.fout t g d p.2))⟩
  links := n.links.zipIdx.map fun p =>
    ⟨p.1.dest, ofCells N H (gate D (.node g d) fun k t => X k (.link t g d p.2))⟩

def convOn (D : List Done) (N H : ℕ) (X : Vals) (name : String) (c : Converter) :
    OutputConverter where
  name := name
  flowSrc := c.srcRatios.map fun q =>
    (q.1, ofCells N H (gate D (.src name q.1) fun k t => X k (.convSrc t name q.1)))
  flowDest := ofCells N H (gate D (.dest name) fun k t => X k (.convDest t name))

def resultOn (D : List Done) (s : Study) (X : Vals) (b : Benchmark) : Result where
  networks := s.networks.map fun p => (p.1, ⟨p.2.nodes.map fun q =>
    (q.1, nodeOn D s.nbScn s.horizon X p.1 q.1 q.2)⟩)
  converters := s.converters.map fun p => (p.1, convOn D s.nbScn s.horizon X p.1 p.2)
  benchmark := b

/-- the result with all cells written -/
def nodeAll (N H : ℕ) (X : Vals) (g d : String) (n : InputNode) : OutputNode where
  consumptions := n.consumptions.zipIdx.map fun p =>
    ⟨ofCells N H fun k t => val p.1.quantity k t - X k (.lol t g d p.2), p.1.name⟩
  productions := n.productions.zipIdx.map fun p =>
    ⟨p.1.name, ofCells N H fun k t => X k (.prod t g d p.2)⟩
  storages := n.storages.zipIdx.map fun p =>
    ⟨p.1.name, ofCells N H fun k t => X k (.cap t g d p.2),
      ofCells N H fun k t => X k (.fin t g d p.2), ofCells N H fun k t => X k (.fout t g d p.2)⟩
  links := n.links.zipIdx.map fun p => ⟨p.1.dest, ofCells N H fun k t => X k (.link t g d p.2)⟩

def convAll (N H : ℕ) (X : Vals) (name : String) (c : Converter) : OutputConverter where
  name := name
  flowSrc := c.srcRatios.map fun q => (q.1, ofCells N H fun k t => X k (.convSrc t name q.1))
  flowDest := ofCells N H fun k t => X k (.convDest t name)

def resultAll (s : Study) (X : Vals) (b : Benchmark) : Result where
  networks := s.networks.map fun p => (p.1, ⟨p.2.nodes.map fun q =>
    (q.1, nodeAll s.nbScn s.horizon X p.1 q.1 q.2)⟩)
  converters := s.converters.map fun p => (p.1, convAll s.nbScn s.horizon X p.1 p.2)
  benchmark := b

theorem init_eq (s : Study) (X : Vals) (b : Benchmark) :
    OutputMapper.init s b = resultOn [] s X b := by
  have e : ∀ id f, gate [] id f = fun _ _ => 0 := by
    intro id f; funext k t; simp [gate]
  unfold OutputMapper.init resultOn
  congr 1
  · apply List.map_congr_left
    intro p _
    congr 2
    apply List.map_congr_left
    intro q _
    congr 1
    unfold OutputNode.buildLikeInput nodeOn
    simp only [e, ← zeros_eq]
    congr 1
    · exact (zipIdx_map_fst q.2.consumptions (fun c => (⟨_, c.name⟩ : OutputConsumption)) 0).symm
    · exact (zipIdx_map_fst q.2.productions (fun c => (⟨c.name, _⟩ : OutputProduction)) 0).symm
    · exact (zipIdx_map_fst q.2.storages (fun c => (⟨c.name, _, _, _⟩ : OutputStorage)) 0).symm
    · exact (zipIdx_map_fst q.2.links (fun c => (⟨c.dest, _⟩ : OutputLink)) 0).symm
  · simp only [convOn, e, ← zeros_eq]

/-! ### One write -/

theorem zipSet_map {γ α β : Type} {f : α → β → Except PyErr β} {A : γ → α} {B C : γ → β}
    {l : List γ} (h : ∀ x ∈ l, f (A x) (B x) = .ok (C x)) :
    OutputMapper.zipSet f (l.map A) (l.map B) = .ok (l.map C) := by
  induction l with
  | nil => rfl
  | cons a l ih =>
    simp only [List.map_cons, OutputMapper.zipSet]
    rw [h a (by simp), ih (fun x hx => h x (by simp [hx]))]
    rfl

theorem set2_gate {N H k t : ℕ} (hk : k < N) (ht : t < H) (D : List Done) (id : ℕ → ℕ → Done)
    (hid : ∀ k t k' t', id k t = id k' t' → k = k' ∧ t = t') (f : ℕ → ℕ → ℚ) :
    (ofCells N H (gate D id f)).set2 k t (f k t) = .ok (ofCells N H (gate (D ++ [id k t]) id f)) := by
  rw [set2_ofCells _ _ hk ht]
  congr 1
  apply ofCells_congr
  intro k' _ t' _
  unfold gate
  by_cases h : k' = k ∧ t' = t
  · obtain ⟨rfl, rfl⟩ := h
    simp
  · rw [if_neg h]
    have : id k' t' ≠ id k t := fun e => h (hid _ _ _ _ e)
    simp [this]

theorem gate_append_ne {D : List Done} {id : ℕ → ℕ → Done} {x : Done} (h : ∀ k t, id k t ≠ x)
    (f : ℕ → ℕ → ℚ) : gate (D ++ [x]) id f = gate D id f := by
  funext k t
  simp [gate, h]

theorem writeNode_ok {N H k t : ℕ} (hk : k < N) (ht : t < H) (D : List Done) (X : Vals)
    (g d : String) (n : InputNode) :
    OutputMapper.writeNode t k ((lpNodeOf g d k t n).received (X k)) (nodeOn D N H X g d n) =
      .ok (nodeOn (D ++ [.node g d k t]) N H X g d n) := by
  have hid : ∀ k t k' t', Done.node g d k t = Done.node g d k' t' → k = k' ∧ t = t' := by
    intro _ _ _ _ e; simpa using e
  unfold OutputMapper.writeNode
  simp only [lpNodeOf, LPNode.received, nodeOn, List.map_map, Function.comp_def]
  rw [zipSet_map (C := fun p => ⟨ofCells N H (gate (D ++ [.node g d k t]) (.node g d)
      fun k t => val p.1.quantity k t - X k (.lol t g d p.2)), p.1.name⟩),
    zipSet_map (C := fun p => ⟨p.1.name, ofCells N H (gate (D ++ [.node g d k t]) (.node g d)
      fun k t => X k (.prod t g d p.2))⟩),
    zipSet_map (C := fun p => ⟨p.1.name,
      ofCells N H (gate (D ++ [.node g d k t]) (.node g d) fun k t => X k (.cap t g d p.2)),
      ofCells N H (gate (D ++ [.node g d k t]) (.node g d) fun k t => X k (.fin t g d p.2)),
      ofCells N H (gate (D ++ [.node g d k t]) (.node g d) fun k t => X k (.fout t g d p.2))⟩),
    zipSet_map (C := fun p => ⟨p.1.dest, ofCells N H (gate (D ++ [.node g d k t]) (.node g d)
      fun k t => X k (.link t g d p.2))⟩)]
  · rfl
  · intro p _
    rw [set2_gate hk ht D (.node g d) hid (fun k t => X k (.link t g d p.2))]; rfl
  · intro p _
    rw [set2_gate hk ht D (.node g d) hid (fun k t => X k (.cap t g d p.2)),
      set2_gate hk ht D (.node g d) hid (fun k t => X k (.fin t g d p.2)),
      set2_gate hk ht D (.node g d) hid (fun k t => X k (.fout t g d p.2))]; rfl
  · intro p _
    rw [set2_gate hk ht D (.node g d) hid (fun k t => X k (.prod t g d p.2))]; rfl
  · intro p _
    rw [set2_gate hk ht D (.node g d) hid
      (fun k t => val p.1.quantity k t - X k (.lol t g d p.2))]; rfl

theorem Dict.modify_map {α K V : Type} [DecidableEq K] {l : List α} {key : α → K} {F : α → V} {a : α}
    (hn : (l.map key).Nodup) (ha : a ∈ l) (φ : V → V) :
    Dict.modify (l.map fun p => (key p, F p)) (key a) φ =
      l.map fun p => (key p, if key p = key a then φ (F p) else F p) := by
  induction l with
  | nil => simp at ha
  | cons b l ih =>
    rw [List.map_cons, List.nodup_cons] at hn
    simp only [List.map_cons, Dict.modify]
    by_cases hb : key b = key a
    · rw [if_pos hb, if_pos hb]
      congr 1
      apply List.map_congr_left
      intro p hp
      rw [if_neg]
      intro e
      exact hn.1 (hb ▸ e ▸ List.mem_map.mpr ⟨p, hp, rfl⟩)
    · rw [if_neg hb, if_neg hb, ih hn.2]
      rcases List.mem_cons.mp ha with rfl | h
      · exact absurd rfl hb
      · exact h

theorem Dict.get?_map_mem {α K V : Type} [DecidableEq K] {l : List α} {key : α → K} {F : α → V} {a : α}
    (hn : (l.map key).Nodup) (ha : a ∈ l) :
    Dict.get? (l.map fun p => (key p, F p)) (key a) = some (F a) := by
  apply Dict.get?_of_mem
  · simpa [Dict.keys, Function.comp_def] using hn
  · exact List.mem_map.mpr ⟨a, ha, rfl⟩

theorem nodeOn_ne {D : List Done} {N H : ℕ} {X : Vals} {g d : String} {n : InputNode} {x : Done}
    (h : ∀ k t, Done.node g d k t ≠ x) : nodeOn (D ++ [x]) N H X g d n = nodeOn D N H X g d n := by
  unfold nodeOn
  simp only [gate_append_ne h]

theorem convOn_ne {D : List Done} {N H : ℕ} {X : Vals} {name : String} {c : Converter} {x : Done}
    (h : ∀ q k t, Done.src name q k t ≠ x) (h' : ∀ k t, Done.dest name k t ≠ x) :
    convOn (D ++ [x]) N H X name c = convOn D N H X name c := by
  unfold convOn
  simp only [gate_append_ne h']
  congr 1
  apply List.map_congr_left
  intro q _
  rw [gate_append_ne (h q.1)]

theorem setNodeVar_ok {s : Study} (hi : StudyInv s) {p : String × InputNetwork}
    (hg : p ∈ s.networks) {q : String × InputNode} (hd : q ∈ p.2.nodes) {k t : ℕ}
    (hk : k < s.nbScn) (ht : t < s.horizon) (D : List Done) (X : Vals) (b : Benchmark) :
    OutputMapper.setNodeVar p.1 q.1 t k ((lpNodeOf p.1 q.1 k t q.2).received (X k))
      (resultOn D s X b) = .ok (resultOn (D ++ [.node p.1 q.1 k t]) s X b) := by
  unfold OutputMapper.setNodeVar
  have e1 : (resultOn D s X b).networks.get? p.1 =
      some ⟨p.2.nodes.map fun q => (q.1, nodeOn D s.nbScn s.horizon X p.1 q.1 q.2)⟩ :=
    Dict.get?_map_mem (key := fun p : String × InputNetwork => p.1) hi.names.networks hg
  have e2 : Dict.get? (p.2.nodes.map fun q => (q.1, nodeOn D s.nbScn s.horizon X p.1 q.1 q.2)) q.1 =
      some (nodeOn D s.nbScn s.horizon X p.1 q.1 q.2) :=
    Dict.get?_map_mem (key := fun p : String × InputNode => p.1) (hi.names.nodes p hg) hd
  rw [Dict.getE_of_get? e1]
  simp only [bind, Except.bind]
  rw [Dict.getE_of_get? e2]
  dsimp only
  rw [writeNode_ok hk ht]
  simp only [pure, Except.pure]
  congr 1
  unfold resultOn
  congr 1
  · dsimp only
    rw [Dict.modify_map (key := fun p : String × InputNetwork => p.1) hi.names.networks hg]
    apply List.map_congr_left
    intro p' hp'
    by_cases h : p'.1 = p.1
    · have : p' = p := List.inj_on_of_nodup_map hi.names.networks hp' hg h
      subst this
      rw [if_pos rfl]
      dsimp only
      congr 2
      rw [Dict.modify_map (key := fun p : String × InputNode => p.1) (hi.names.nodes p' hg) hd]
      apply List.map_congr_left
      intro q' hq'
      by_cases h : q'.1 = q.1
      · have : q' = q := List.inj_on_of_nodup_map (hi.names.nodes p' hg) hq' hd h
        subst this
        rw [if_pos rfl]
      · rw [if_neg h, nodeOn_ne]
        intro k t e
        simp only [Done.node.injEq] at e
        exact h e.2.1
    · rw [if_neg h]
      congr 2
      apply List.map_congr_left
      intro q' _
      rw [nodeOn_ne]
      intro k t e
      simp only [Done.node.injEq] at e
      exact h e.1
  · apply List.map_congr_left
    intro c _
    rw [convOn_ne]
    · intro _ _ _ e; cases e
    · intro _ _ e; cases e

/-! ### Converters -/

theorem wireKeys_ok {α : Type} {l : Dict (List String) α} (hn : (l.map Prod.fst).Nodup)
    (hc : ∀ k ∈ l.map Prod.fst, ∃ g d, k = [g, d] ∧ CleanPair g d) : wireKeys l = l := by
  have hinj : ∀ k ∈ l.map Prod.fst, splitKey (joinKey k) = k := by
    intro k hk
    obtain ⟨g, d, rfl, hcl⟩ := hc k hk
    exact splitKey_joinKey hcl
  have h1 : ((l.map fun p => (joinKey p.1, p.2)).map Prod.fst).Nodup := by
    rw [List.map_map]
    have : (List.map ((Prod.fst : String × α → String) ∘ fun p : List String × α => (joinKey p.1, p.2)) l) =
        (l.map Prod.fst).map joinKey := by rw [List.map_map]; rfl
    rw [this]
    apply List.Nodup.map_on _ hn
    intro a ha b hb e
    rw [← hinj a ha, ← hinj b hb, e]
  unfold wireKeys
  rw [Dict.ofList_of_nodup h1]
  have e : (l.map fun p => (joinKey p.1, p.2)).map (fun p => (splitKey p.1, p.2)) = l := by
    rw [List.map_map]
    conv_rhs => rw [← List.map_id l]
    apply List.map_congr_left
    intro p hp
    simp only [Function.comp, id]
    rw [hinj p.1 (List.mem_map.mpr ⟨p, hp, rfl⟩)]
  rw [e, Dict.ofList_of_nodup hn]

theorem foldlM_state {α σ δ : Type} {f : σ → α → Except PyErr σ} (R : List δ → σ) (e : α → List δ)
    {l : List α} (h : ∀ x ∈ l, ∀ D, f (R D) x = .ok (R (D ++ e x))) (D : List δ) :
    l.foldlM f (R D) = .ok (R (D ++ l.flatMap e)) := by
  induction l generalizing D with
  | nil => simp [pure, Except.pure]
  | cons a l ih =>
    rw [List.foldlM_cons, h a (by simp)]
    simp only [bind, Except.bind]
    rw [ih (fun x hx => h x (by simp [hx]))]
    simp

theorem Dict.set_map {α K V : Type} [DecidableEq K] {l : List α} {key : α → K} {F : α → V} {a : α}
    (hn : (l.map key).Nodup) (ha : a ∈ l) (v : V) :
    Dict.set (l.map fun p => (key p, F p)) (key a) v =
      l.map fun p => (key p, if key p = key a then v else F p) := by
  induction l with
  | nil => simp at ha
  | cons b l ih =>
    rw [List.map_cons, List.nodup_cons] at hn
    simp only [List.map_cons, Dict.set]
    by_cases hb : key b = key a
    · rw [if_pos hb, if_pos hb, hb]
      congr 1
      apply List.map_congr_left
      intro p hp
      rw [if_neg]
      intro e
      exact hn.1 (hb ▸ e ▸ List.mem_map.mpr ⟨p, hp, rfl⟩)
    · rw [if_neg hb, if_neg hb, ih hn.2]
      rcases List.mem_cons.mp ha with rfl | h
      · exact absurd rfl hb
      · exact h

def convDone (name : String) (c : Converter) (k t : ℕ) : List Done :=
  (c.srcRatios.map fun q => .src name q.1 k t) ++ [.dest name k t]

theorem writeConv_ok {s : Study} (hi : StudyInv s) (hcl : CleanSources s) {p : String × Converter}
    (hp : p ∈ s.converters) {N H k t : ℕ} (hk : k < N) (ht : t < H) (D : List Done) (X : Vals) :
    OutputMapper.writeConv t k ((lpConvOf k t p.2).received (X k)) (convOn D N H X p.1 p.2) =
      .ok (convOn (D ++ convDone p.1 p.2 k t) N H X p.1 p.2) := by
  have hname := (hi.convs p hp).name
  have hnd := hi.names.sources p hp
  have hclean : ∀ k ∈ p.2.srcRatios.map Prod.fst, ∃ g d, k = [g, d] ∧ CleanPair g d := by
    intro key hkey
    obtain ⟨g, d, _, e, _⟩ := (hi.convs p hp).sources key hkey
    subst e
    exact ⟨g, d, rfl, hcl p hp g d hkey⟩
  have ew : ((lpConvOf k t p.2).received (X k)).varFlowSrc =
      p.2.srcRatios.map fun q => (q.1, X k (.convSrc t p.1 q.1)) := by
    simp only [LPConverter.received, lpConvOf, List.map_map, Function.comp_def, hname]
    apply wireKeys_ok
    · simpa [Function.comp_def] using hnd
    · intro key hkey
      apply hclean
      simpa using hkey
  have hfold := foldlM_state (σ := Dict (List String) NdArray)
    (f := fun d (q : List String × ℚ) => do
      let a ← Dict.getE d q.1
      let a' ← a.set2 k t q.2
      pure (d.set q.1 a'))
    (R := fun D => p.2.srcRatios.map fun q =>
      (q.1, ofCells N H (gate D (.src p.1 q.1) fun k t => X k (.convSrc t p.1 q.1))))
    (e := fun q => [Done.src p.1 q.1 k t])
    (l := p.2.srcRatios.map fun q => (q.1, X k (.convSrc t p.1 q.1)))
    (by
      intro x hx D
      obtain ⟨q, hq, rfl⟩ := List.mem_map.mp hx
      dsimp only
      rw [Dict.getE_of_get? (Dict.get?_map_mem (key := fun q : List String × NumVal => q.1) hnd hq)]
      simp only [bind, Except.bind]
      rw [set2_gate hk ht D (.src p.1 q.1) (by intro _ _ _ _ e; simpa using e)
        (fun k t => X k (.convSrc t p.1 q.1))]
      simp only [pure, Except.pure]
      rw [Dict.set_map (key := fun q : List String × NumVal => q.1) hnd hq]
      congr 1
      apply List.map_congr_left
      intro q' hq'
      by_cases h : q'.1 = q.1
      · rw [if_pos h, h]
      · rw [if_neg h, gate_append_ne]
        intro k t e
        simp only [Done.src.injEq] at e
        exact h e.2.1) D
  unfold OutputMapper.writeConv
  rw [ew]
  simp only [convOn]
  rw [hfold]
  simp only [bind, Except.bind]
  rw [show ((lpConvOf k t p.2).received (X k)).varFlowDest = X k (.convDest t p.1) by
    simp only [LPConverter.received, lpConvOf, hname]]
  rw [set2_gate hk ht D (.dest p.1) (by intro _ _ _ _ e; simpa using e)
    (fun k t => X k (.convDest t p.1))]
  simp only [pure, Except.pure]
  congr 2
  · apply List.map_congr_left
    intro q _
    congr 1
    apply ofCells_congr
    intro k' _ t' _
    unfold gate convDone
    refine if_congr ?_ rfl rfl
    simp only [List.mem_append, List.mem_flatMap, List.mem_map, List.mem_singleton]
    constructor
    · rintro (h | ⟨_, ⟨a, ha, rfl⟩, h⟩)
      · exact .inl h
      · exact .inr (.inl ⟨a, ha, h.symm⟩)
    · rintro (h | ⟨a, ha, h⟩ | h)
      · exact .inl h
      · exact .inr ⟨_, ⟨a, ha, rfl⟩, h.symm⟩
      · cases h
  · apply ofCells_congr
    intro k' _ t' _
    unfold gate convDone
    refine if_congr ?_ rfl rfl
    simp only [List.mem_append, List.mem_map, List.mem_singleton]
    constructor
    · rintro (h | h)
      · exact .inl h
      · exact .inr (.inr h)
    · rintro (h | ⟨a, ha, h⟩ | h)
      · exact .inl h
      · cases h
      · exact .inr h

theorem gate_append_of {D D' : List Done} {id : ℕ → ℕ → Done} (h : ∀ k t, id k t ∉ D')
    (f : ℕ → ℕ → ℚ) : gate (D ++ D') id f = gate D id f := by
  funext k t
  simp [gate, h]

theorem setConverterVar_ok {s : Study} (hi : StudyInv s) (hcl : CleanSources s)
    {p : String × Converter} (hp : p ∈ s.converters) {k t : ℕ}
    (hk : k < s.nbScn) (ht : t < s.horizon) (D : List Done) (X : Vals) (b : Benchmark) :
    OutputMapper.setConverterVar p.1 t k ((lpConvOf k t p.2).received (X k))
      (resultOn D s X b) = .ok (resultOn (D ++ convDone p.1 p.2 k t) s X b) := by
  unfold OutputMapper.setConverterVar
  have e1 : (resultOn D s X b).converters.get? p.1 =
      some (convOn D s.nbScn s.horizon X p.1 p.2) :=
    Dict.get?_map_mem (key := fun p : String × Converter => p.1) hi.names.converters hp
  rw [Dict.getE_of_get? e1]
  simp only [bind, Except.bind]
  rw [writeConv_ok hi hcl hp hk ht]
  simp only [pure, Except.pure]
  congr 1
  unfold resultOn
  congr 1
  · apply List.map_congr_left
    intro p' _
    congr 2
    apply List.map_congr_left
    intro q' _
    congr 1
    have hnot : ∀ k' t', Done.node p'.1 q'.1 k' t' ∉ convDone p.1 p.2 k t := by
      intro k' t' h
      simp [convDone] at h
    unfold nodeOn
    simp only [gate_append_of hnot]
  · dsimp only
    rw [Dict.modify_map (key := fun p : String × Converter => p.1) hi.names.converters hp]
    apply List.map_congr_left
    intro p' hp'
    by_cases h : p'.1 = p.1
    · have : p' = p := List.inj_on_of_nodup_map hi.names.converters hp' hp h
      subst this
      rw [if_pos rfl]
    · rw [if_neg h]
      congr 1
      have h1 : ∀ q k' t', Done.src p'.1 q k' t' ∉ convDone p.1 p.2 k t := by
        intro q k' t' hm
        simp only [convDone, List.mem_append, List.mem_map, List.mem_singleton] at hm
        rcases hm with ⟨_, _, e⟩ | e
        · simp only [Done.src.injEq] at e; exact h e.1.symm
        · cases e
      have h2 : ∀ k' t', Done.dest p'.1 k' t' ∉ convDone p.1 p.2 k t := by
        intro k' t' hm
        simp only [convDone, List.mem_append, List.mem_map, List.mem_singleton] at hm
        rcases hm with ⟨_, _, e⟩ | e
        · cases e
        · simp only [Done.dest.injEq] at e; exact h e.1
      unfold convOn
      simp only [gate_append_of h2]
      congr 1
      apply List.map_congr_left
      intro q _
      rw [gate_append_of (h1 q.1)]

/-! ### All writes -/

def stepDone (s : Study) (k t : ℕ) : List Done :=
  (s.networks.flatMap fun p => p.2.nodes.flatMap fun q => [Done.node p.1 q.1 k t]) ++
    s.converters.flatMap fun p => convDone p.1 p.2 k t

theorem mapStep_ok {s : Study} (hi : StudyInv s) (hcl : CleanSources s) {k t : ℕ}
    (hk : k < s.nbScn) (ht : t < s.horizon) (X : Vals) (b : Benchmark) (D : List Done) :
    mapStep s k t ((timeStepOf s k t).received (X k)) (resultOn D s X b) =
      .ok (resultOn (D ++ stepDone s k t) s X b) := by
  unfold mapStep
  rw [foldlM_state (R := fun D => resultOn D s X b)
    (e := fun p => p.2.nodes.flatMap fun q => [Done.node p.1 q.1 k t])]
  · simp only [bind, Except.bind]
    rw [foldlM_state (R := fun D => resultOn D s X b) (e := fun p => convDone p.1 p.2 k t)]
    · rw [List.append_assoc]; rfl
    · intro p hp D
      have e : ((timeStepOf s k t).received (X k)).converters.get? p.1 =
          some ((lpConvOf k t p.2).received (X k)) := by
        simp only [LPTimeStep.received, timeStepOf, List.map_map, Function.comp_def]
        exact Dict.get?_map_mem (key := fun p : String × Converter => p.1) hi.names.converters hp
      rw [Dict.getE_of_get? e]
      exact setConverterVar_ok hi hcl hp hk ht D X b
  · intro p hp D
    rw [foldlM_state (R := fun D => resultOn D s X b) (e := fun q => [Done.node p.1 q.1 k t])]
    intro q hq D
    have e1 : ((timeStepOf s k t).received (X k)).networks.get? p.1 =
        some (p.2.nodes.map fun q => (q.1, (lpNodeOf p.1 q.1 k t q.2).received (X k))) := by
      simp only [LPTimeStep.received, timeStepOf, List.map_map, Function.comp_def]
      exact Dict.get?_map_mem (key := fun p : String × InputNetwork => p.1) hi.names.networks hp
    have e2 : Dict.get? (p.2.nodes.map fun q => (q.1, (lpNodeOf p.1 q.1 k t q.2).received (X k))) q.1 =
        some ((lpNodeOf p.1 q.1 k t q.2).received (X k)) :=
      Dict.get?_map_mem (key := fun p : String × InputNode => p.1) (hi.names.nodes p hp) hq
    rw [Dict.getE_of_get? e1]
    simp only [bind, Except.bind]
    rw [Dict.getE_of_get? e2]
    exact setNodeVar_ok hi hp hq hk ht D X b

def outsOf (s : Study) (X : Vals) : List (List (LPTimeStep ℚ)) :=
  (List.range s.nbScn).map fun k => (List.range s.horizon).map fun t =>
    (timeStepOf s k t).received (X k)

def allDone (s : Study) : List Done :=
  (List.range s.nbScn).flatMap fun k => (List.range s.horizon).flatMap fun t => stepDone s k t

theorem mapResults_ok {s : Study} (hi : StudyInv s) (hcl : CleanSources s) (X : Vals)
    (b : Benchmark) :
    mapResults s (outsOf s X) (OutputMapper.init s b) = .ok (resultOn (allDone s) s X b) := by
  rw [init_eq s X b]
  unfold mapResults
  rw [foldlM_state (R := fun D => resultOn D s X b)
    (e := fun k => (List.range s.horizon).flatMap fun t => stepDone s k t)]
  · rw [List.nil_append]; rfl
  · intro k hk D
    have hk : k < s.nbScn := by simpa using hk
    have e : (outsOf s X)[k]? = some ((List.range s.horizon).map fun t =>
        (timeStepOf s k t).received (X k)) := by simp [outsOf, hk]
    rw [e]
    dsimp only
    unfold mapScenario
    rw [foldlM_state (R := fun D => resultOn D s X b) (e := fun t => stepDone s k t)]
    intro t ht D
    have ht : t < s.horizon := by simpa using ht
    have e : ((List.range s.horizon).map fun t => (timeStepOf s k t).received (X k))[t]? =
        some ((timeStepOf s k t).received (X k)) := by simp [ht]
    rw [e]
    exact mapStep_ok hi hcl hk ht X b D

theorem resultOn_all (s : Study) (X : Vals) (b : Benchmark) :
    resultOn (allDone s) s X b = resultAll s X b := by
  unfold resultOn resultAll
  have hg : ∀ (id : ℕ → ℕ → Done) f, (∀ k < s.nbScn, ∀ t < s.horizon, id k t ∈ stepDone s k t) →
      ofCells s.nbScn s.horizon (gate (allDone s) id f) = ofCells s.nbScn s.horizon f := by
    intro id f h
    apply ofCells_congr
    intro k hk t ht
    unfold gate
    rw [if_pos]
    exact List.mem_flatMap.mpr ⟨k, by simpa using hk,
      List.mem_flatMap.mpr ⟨t, by simpa using ht, h k hk t ht⟩⟩
  congr 1
  · apply List.map_congr_left
    intro p hp
    congr 2
    apply List.map_congr_left
    intro q hq
    congr 1
    have hm : ∀ k < s.nbScn, ∀ t < s.horizon, Done.node p.1 q.1 k t ∈ stepDone s k t := by
      intro k _ t _
      exact List.mem_append_left _ (List.mem_flatMap.mpr ⟨p, hp, List.mem_flatMap.mpr
        ⟨q, hq, by simp⟩⟩)
    unfold nodeOn nodeAll
    simp only [hg _ _ hm]
  · apply List.map_congr_left
    intro p hp
    congr 1
    have h2 : ∀ k < s.nbScn, ∀ t < s.horizon, Done.dest p.1 k t ∈ stepDone s k t := by
      intro k _ t _
      exact List.mem_append_right _ (List.mem_flatMap.mpr ⟨p, hp, by simp [convDone]⟩)
    unfold convOn convAll
    simp only [hg _ _ h2]
    congr 1
    apply List.map_congr_left
    intro q hq
    rw [hg]
    intro k _ t _
    refine List.mem_append_right _ (List.mem_flatMap.mpr ⟨p, hp, List.mem_append_left _ ?_⟩)
    exact List.mem_map.mpr ⟨q, hq, rfl⟩

/-- values the solver gives, per scenario -/
def valsOf (solver : Solver) (s : Study) : Vals := fun k => solver (fullLog s k)

theorem solveBatch_ok {s : Study} (hi : StudyInv s) (hu : AllUsable s)
    (hc : CompleteConverters s) (hr : RatiosUsable s) (solver : Solver) {k : ℕ}
    (hk : k < s.nbScn) : solveBatch solver s k = .ok ((List.range s.horizon).map fun t =>
      (timeStepOf s k t).received (valsOf solver s k)) := by
  unfold solveBatch
  rw [buildAll_ok hi hu hc hr hk]
  simp only [bind, Except.bind, pure, Except.pure, List.map_map]
  rfl

theorem solveLp_ok {s : Study} (hi : StudyInv s) (hu : AllUsable s)
    (hc : CompleteConverters s) (hr : RatiosUsable s) (hcl : CleanSources s) (solver : Solver)
    (b : Benchmark) : solveLp solver b s = .ok (resultAll s (valsOf solver s) b) := by
  unfold solveLp
  rw [mapM_ok (g := fun k => (List.range s.horizon).map fun t =>
      (timeStepOf s k t).received (valsOf solver s k))]
  · simp only [bind, Except.bind]
    rw [show (List.range s.nbScn).map (fun k => (List.range s.horizon).map fun t =>
      (timeStepOf s k t).received (valsOf solver s k)) = outsOf s (valsOf solver s) from rfl,
      mapResults_ok hi hcl, resultOn_all]
  · intro k hk
    exact solveBatch_ok hi hu hc hr solver (by simpa using hk)

end Hadar
