import Verif.Spec.LP
import Verif.Proofs.Base
import Verif.Proofs.Fluent

/-!
# The log of solver calls, in closed form
-/

namespace Hadar

open Spec

theorem mapM_ok {α β : Type} {f : α → Except PyErr β} {g : α → β} {l : List α}
    (h : ∀ x ∈ l, f x = .ok (g x)) : l.mapM f = .ok (l.map g) := by
  induction l with
  | nil => rfl
  | cons a l ih =>
    rw [List.mapM_cons, h a (by simp), ih (fun x hx => h x (by simp [hx]))]
    rfl

theorem getitem_val {v : NumVal} {h n k t : ℕ} (hv : Usable h n v) (hk : k < n) (ht : t < h) :
    v.getitem k t = .ok (val v k t) := by
  obtain ⟨q, hq⟩ := hv.2 k t hk ht
  rw [val, hq]

/-! ### Nodes -/

def lpNodeOf (g d : String) (k t : ℕ) (n : InputNode) : LPNode Var where
  consumptions := n.consumptions.zipIdx.map fun p =>
    ⟨val p.1.cost k t, val p.1.quantity k t, p.1.name, .lol t g d p.2⟩
  productions := n.productions.zipIdx.map fun p =>
    ⟨p.1.name, val p.1.cost k t, .prod t g d p.2, val p.1.quantity k t⟩
  storages := n.storages.zipIdx.map fun p =>
    ⟨p.1.name, val p.1.capacity k t, .cap t g d p.2, val p.1.flowIn k t, .fin t g d p.2,
      val p.1.flowOut k t, .fout t g d p.2, val p.1.cost k t, p.1.initCapacity, val p.1.eff k t⟩
  links := n.links.zipIdx.map fun p =>
    ⟨d, p.1.dest, val p.1.quantity k t, .link t g d p.2, val p.1.cost k t⟩

theorem mem_of_mem_zipIdx {α : Type} {l : List α} {p : α × ℕ} (h : p ∈ l.zipIdx) : p.1 ∈ l :=
  List.fst_mem_of_mem_zipIdx h

theorem lpNode_ofInput {h m : ℕ} {n : InputNode} (hn : NodeAll (Usable h m) n) {g d : String}
    {k t : ℕ} (hk : k < m) (ht : t < h) :
    LPNode.ofInput g d k t n = .ok (lpNodeOf g d k t n) := by
  unfold LPNode.ofInput
  rw [mapM_ok (g := fun p => ⟨val p.1.cost k t, val p.1.quantity k t, p.1.name, .lol t g d p.2⟩),
    mapM_ok (g := fun p => ⟨p.1.name, val p.1.cost k t, .prod t g d p.2, val p.1.quantity k t⟩),
    mapM_ok (g := fun p => ⟨p.1.name, val p.1.capacity k t, .cap t g d p.2, val p.1.flowIn k t,
      .fin t g d p.2, val p.1.flowOut k t, .fout t g d p.2, val p.1.cost k t, p.1.initCapacity,
      val p.1.eff k t⟩),
    mapM_ok (g := fun p => ⟨d, p.1.dest, val p.1.quantity k t, .link t g d p.2, val p.1.cost k t⟩)]
  · rfl
  · intro p hp
    obtain ⟨h1, h2⟩ := hn.links _ (mem_of_mem_zipIdx hp)
    rw [LPLink.ofInput, getitem_val h2 hk ht, getitem_val h1 hk ht]; rfl
  · intro p hp
    obtain ⟨h1, h2, h3, h4, h5⟩ := hn.storages _ (mem_of_mem_zipIdx hp)
    rw [LPStorage.ofInput, getitem_val h1 hk ht, getitem_val h2 hk ht, getitem_val h3 hk ht,
      getitem_val h4 hk ht, getitem_val h5 hk ht]; rfl
  · intro p hp
    obtain ⟨h1, h2⟩ := hn.productions _ (mem_of_mem_zipIdx hp)
    rw [LPProduction.ofInput, getitem_val h2 hk ht, getitem_val h1 hk ht]; rfl
  · intro p hp
    obtain ⟨h1, h2⟩ := hn.consumptions _ (mem_of_mem_zipIdx hp)
    rw [LPConsumption.ofInput, getitem_val h2 hk ht, getitem_val h1 hk ht]; rfl

theorem getNodeVar_ok {s : Study} (hi : StudyInv s) (hu : AllUsable s) {g d : String}
    {net : InputNetwork} {n : InputNode} (hg : (g, net) ∈ s.networks) (hd : (d, n) ∈ net.nodes)
    {k t : ℕ} (hk : k < s.nbScn) (ht : t < s.horizon) :
    getNodeVar s g d t k = .ok (lpNodeOf g d k t n) := by
  unfold getNodeVar
  rw [Dict.getE_of_get? (hi.get?_network hg)]
  show (do let n ← Dict.getE net.nodes d; LPNode.ofInput g d k t n) = _
  rw [Dict.getE_of_get? (hi.get?_node hg hd)]
  exact lpNode_ofInput (hu.1 g d n ⟨net, hg, hd⟩) hk ht

/-! ### Converters -/

def lpConvOf (k t : ℕ) (c : Converter) : LPConverter Var :=
  ⟨c.name, c.srcRatios.map fun p => (p.1, val p.2 k t),
    c.srcRatios.map fun p => (p.1, .convSrc t c.name p.1), c.destNetwork, c.destNode,
    .convDest t c.name, fval c.cost k t, fval c.max k t⟩

/-- the variable of one source. When the ratio is zero the maximum is not, see `RatiosUsable`. -/
def srcVar (v : Var) (max r : ℚ) : Cmd :=
  if r = 0 then .numVarInf v 0 (decide (0 ≤ max)) else .numVar v 0 (max / r)

theorem srcVar_cases (v : Var) (max r : ℚ) :
    (r = 0 ∧ srcVar v max r = .numVarInf v 0 (decide (0 ≤ max))) ∨ (r ≠ 0 ∧ srcVar v max r = .numVar v 0 (max / r)) := by
  unfold srcVar
  by_cases h : r = 0
  · exact .inl ⟨h, if_pos h⟩
  · exact .inr ⟨h, if_neg h⟩

theorem srcVar_eq {v : Var} {max r : ℚ} {a : Cmd} (h : srcVar v max r = a) :
    (r = 0 ∧ .numVarInf v 0 (decide (0 ≤ max)) = a) ∨ (r ≠ 0 ∧ .numVar v 0 (max / r) = a) := by
  rcases srcVar_cases v max r with ⟨h1, h2⟩ | ⟨h1, h2⟩
  · exact .inl ⟨h1, h2 ▸ h⟩
  · exact .inr ⟨h1, h2 ▸ h⟩

def convVars (k t : ℕ) (c : Converter) : List Cmd :=
  (c.srcRatios.map fun p => srcVar (.convSrc t c.name p.1) (fval c.max k t) (val p.2 k t)) ++
    [.numVar (.convDest t c.name) 0 (fval c.max k t)]

theorem GivenAsArray.isNumber {v : NumVal} (h : GivenAsArray v) : v.isNumber = false := by
  unfold NumVal.isNumber
  cases hk : v.kind with
  | scalar q => exact absurd hk (h q)
  | matrix a => rfl
  | row a => rfl
  | column a => rfl

theorem srcBound_ok {vm w : NumVal} {v : Var} {k t : ℕ} (h : val w k t = 0 →
    fval (.val vm) k t ≠ 0 ∧ (GivenAsArray w ∨ ∃ v, ConvField.val vm = .val v ∧ GivenAsArray v)) :
    srcBound ((ConvField.val vm).isNumber && w.isNumber) v (val vm k t) (val w k t) =
      .ok (srcVar v (val vm k t) (val w k t)) := by
  unfold srcBound srcVar
  by_cases hz : val w k t = 0
  · obtain ⟨h1, h2⟩ := h hz
    have e : ((ConvField.val vm).isNumber && w.isNumber) = false := by
      rcases h2 with h2 | ⟨v, e, h2⟩
      · rw [GivenAsArray.isNumber h2, Bool.and_false]
      · cases e
        rw [show (ConvField.val vm).isNumber = vm.isNumber from rfl, GivenAsArray.isNumber h2, Bool.false_and]
    have h1 : val vm k t ≠ 0 := h1
    rw [if_neg (by simpa using hz), if_pos hz, e, if_neg (by simp), if_neg h1]
    congr 2
    exact decide_eq_decide.mpr ⟨le_of_lt, fun h => lt_of_le_of_ne h (Ne.symm h1)⟩
  · rw [if_pos hz, if_neg hz]

theorem Spec.RatiosNonzero.usable {s : Study} (h : RatiosNonzero s) : RatiosUsable s :=
  fun p hp q hq k hk t ht hz => absurd hz (h p hp q hq k hk t ht)

theorem getConvVar_ok {s : Study} (hi : StudyInv s) (hu : AllUsable s)
    (hc : CompleteConverters s) (hr : RatiosUsable s) {p : String × Converter}
    (hp : p ∈ s.converters) {k t : ℕ} (hk : k < s.nbScn) (ht : t < s.horizon) :
    getConvVar s p.1 t k = .ok (lpConvOf k t p.2, convVars k t p.2) := by
  obtain ⟨name, c⟩ := p
  obtain ⟨u1, u2, u3⟩ := hu.2 _ hp
  obtain ⟨c1, c2⟩ := hc _ hp
  dsimp only at u1 u2 u3 c1 c2 ⊢
  obtain ⟨vc, hvc⟩ : ∃ v, c.cost = .val v := by
    cases h : c.cost with
    | int0 => exact absurd h c1
    | val v => exact ⟨v, rfl⟩
  obtain ⟨vm, hvm⟩ : ∃ v, c.max = .val v := by
    cases h : c.max with
    | int0 => exact absurd h c2
    | val v => exact ⟨v, rfl⟩
  unfold getConvVar
  rw [Dict.getE_of_get? (Dict.get?_of_mem hi.names.converters hp)]
  simp only [bind, Except.bind]
  rw [mapM_ok (g := fun p => (p.1, val p.2 k t))]
  · dsimp only
    rw [hvc, hvm]
    simp only [ConvField.getitem]
    rw [getitem_val (u2 _ hvc) hk ht, getitem_val (u3 _ hvm) hk ht]
    dsimp only
    rw [mapM_ok (g := fun p => srcVar (.convSrc t c.name p.1) (val vm k t) (val p.2 k t))]
    · simp only [pure, Except.pure, lpConvOf, convVars, hvc, hvm, fval, List.map_map]
      rfl
    · intro q hq
      rw [getitem_val (u1 _ hq) hk ht]
      dsimp only
      have h := hr _ hp _ hq k hk t ht
      dsimp only at h
      rw [hvm] at h
      exact srcBound_ok h
  · intro p hp'
    rw [getitem_val (u1 _ hp') hk ht]; rfl

/-! ### Logs -/

def storLog (g d : String) (k t : ℕ) (n : InputNode) : List Cmd :=
  match n.storages with
  | [] => []
  | st :: _ =>
    if t = 0 then
      [.constraint (.stor t g d st.name) st.initCapacity st.initCapacity,
        .setCoef (.stor t g d st.name) (.fin t g d 0) (-(val st.eff k t)),
        .setCoef (.stor t g d st.name) (.fout t g d 0) 1,
        .setCoef (.stor t g d st.name) (.cap t g d 0) 1]
    else
      [.constraint (.stor t g d st.name) 0 0,
        .setCoef (.stor t g d st.name) (.fin t g d 0) (-(val st.eff k t)),
        .setCoef (.stor t g d st.name) (.fout t g d 0) 1,
        .setCoef (.stor t g d st.name) (.cap (t - 1) g d 0) (-1),
        .setCoef (.stor t g d st.name) (.cap t g d 0) 1]

def nodeLog (g d : String) (k t : ℕ) (n : InputNode) : List Cmd :=
  (lpNodeOf g d k t n).numVars ++ AdequacyBuilder.addNode g d (lpNodeOf g d k t n) t ++
    storLog g d k t n ++ ObjectiveBuilder.addNode (lpNodeOf g d k t n)

def convAdeq (t : ℕ) (c : Converter) : List Cmd :=
  .setCoef (.adeq t c.destNetwork c.destNode) (.convDest t c.name) 1 ::
    c.srcRatios.map fun p =>
      .setCoef (.adeq t (p.1.getD 0 "") (p.1.getD 1 "")) (.convSrc t c.name p.1) (-1)

def convMix (k t : ℕ) (c : Converter) : List Cmd :=
  c.srcRatios.flatMap fun p =>
    [.constraint (.mix t c.name p.1) 0 0,
      .setCoef (.mix t c.name p.1) (.convSrc t c.name p.1) (val p.2 k t),
      .setCoef (.mix t c.name p.1) (.convDest t c.name) (-1)]

def convLog (k t : ℕ) (c : Converter) : List Cmd :=
  convVars k t c ++ convAdeq t c ++ convMix k t c ++ [.setObj (.convDest t c.name) (fval c.cost k t)]

def timeLog (s : Study) (k t : ℕ) : List Cmd :=
  (s.networks.flatMap fun p => p.2.nodes.flatMap fun q => nodeLog p.1 q.1 k t q.2) ++
    s.converters.flatMap fun p => convLog k t p.2

def nodeImports (g d : String) (t : ℕ) (n : InputNode) : List (SubKey × Var) :=
  n.links.zipIdx.map fun p => ((t, g, d, p.1.dest), .link t g d p.2)

def timeImports (s : Study) (t : ℕ) : List (SubKey × Var) :=
  s.networks.flatMap fun p => p.2.nodes.flatMap fun q => nodeImports p.1 q.1 t q.2

def importLog (s : Study) : List Cmd :=
  (List.range s.horizon).flatMap fun t => (timeImports s t).map fun p =>
    .setCoef (.adeq p.1.1 p.1.2.1 p.1.2.2.2) p.2 1

def fullLog (s : Study) (k : ℕ) : List Cmd :=
  (List.range s.horizon).flatMap (timeLog s k) ++ importLog s

def timeKeys (s : Study) (t : ℕ) : List AdeqKey :=
  s.networks.flatMap fun p => p.2.nodes.map fun q => (t, p.1, q.1)

def timeStepOf (s : Study) (k t : ℕ) : LPTimeStep Var where
  networks := s.networks.map fun p => (p.1, p.2.nodes.map fun q => (q.1, lpNodeOf p.1 q.1 k t q.2))
  converters := s.converters.map fun p => (p.1, lpConvOf k t p.2)

/-! ### Loops -/

theorem loopM_ind {α σ β : Type} {f : α → σ → Except PyErr (β × σ)} {out : α → β}
    (P : List α → σ → Prop) {l : List α} {b : σ} (h0 : P [] b)
    (hs : ∀ pre x post, l = pre ++ x :: post → ∀ b, P pre b →
      ∃ b', f x b = .ok (out x, b') ∧ P (pre ++ [x]) b') :
    ∃ b', loopM f l b = .ok (l.map out, b') ∧ P l b' := by
  suffices H : ∀ (post pre : List α) (b : σ), l = pre ++ post → P pre b →
      ∃ b', loopM f post b = .ok (post.map out, b') ∧ P l b' from H l [] b rfl h0
  intro post
  induction post with
  | nil =>
    intro pre b e h
    refine ⟨b, rfl, ?_⟩
    rw [e, List.append_nil]; exact h
  | cons x post ih =>
    intro pre b e h
    obtain ⟨b', hf, hP⟩ := hs pre x post e b h
    obtain ⟨b'', hl, hP'⟩ := ih (pre ++ [x]) b' (by rw [e]; simp) hP
    refine ⟨b'', ?_, hP'⟩
    rw [loopM, hf]
    simp only [bind, Except.bind]
    rw [hl]
    rfl

/-- what the state of the builders is, `caps` being entries known to be in `capacities` -/
structure Rel (b : Build) (log : List Cmd) (keys : List AdeqKey) (imps : List (SubKey × Var))
    (caps : List SubKey) : Prop where
  log : b.log = log
  keys : b.keys = keys
  imports : b.imports = Dict.ofList imps
  capsVal : ∀ key v, b.caps.get? key = some v → v = .cap key.1 key.2.1 key.2.2.1 0
  capsMem : ∀ key ∈ caps, key ∈ b.caps.keys

def capKeys (g d : String) (t : ℕ) (n : InputNode) : List SubKey :=
  (n.storages.take 1).map fun st => (t, g, d, st.name)

def timeCaps (s : Study) (t : ℕ) : List SubKey :=
  s.networks.flatMap fun p => p.2.nodes.flatMap fun q => capKeys p.1 q.1 t q.2

theorem storage_addNode {caps : Dict SubKey Var} {g d : String} {k t : ℕ} {n : InputNode}
    (hv : ∀ key v, caps.get? key = some v → v = .cap key.1 key.2.1 key.2.2.1 0)
    (hp : ∀ st, n.storages.head? = some st → 0 < t → (t - 1, g, d, st.name) ∈ caps.keys) :
    ∃ caps', StorageBuilder.addNode caps g d (lpNodeOf g d k t n) t = .ok (storLog g d k t n, caps') ∧
      (∀ key v, caps'.get? key = some v → v = .cap key.1 key.2.1 key.2.2.1 0) ∧
      (∀ key ∈ caps.keys, key ∈ caps'.keys) ∧ (∀ key ∈ capKeys g d t n, key ∈ caps'.keys) := by
  unfold StorageBuilder.addNode storLog capKeys
  cases hst : n.storages with
  | nil =>
    simp only [lpNodeOf, hst, List.zipIdx_nil, List.map_nil]
    exact ⟨caps, rfl, hv, fun _ h => h, by simp⟩
  | cons st l =>
    simp only [lpNodeOf, hst, List.zipIdx_cons, List.map_cons, List.take_succ_cons, List.take_zero,
      List.map_nil, List.mem_singleton]
    have hval : ∀ key v, (caps.set (t, g, d, st.name) (.cap t g d 0)).get? key = some v →
        v = .cap key.1 key.2.1 key.2.2.1 0 := by
      intro key v h
      rw [Dict.get?_set] at h
      split_ifs at h with he
      · cases h; subst he; rfl
      · exact hv _ _ h
    have hmem : ∀ key ∈ caps.keys, key ∈ (caps.set (t, g, d, st.name) (Var.cap t g d 0)).keys := by
      intro key hk
      rw [← Dict.contains_iff] at hk ⊢
      unfold Dict.contains at hk ⊢
      rw [Dict.get?_set]
      split_ifs
      · rfl
      · exact hk
    have hself : ∀ key, key = (t, g, d, st.name) →
        key ∈ (caps.set (t, g, d, st.name) (Var.cap t g d 0)).keys := by
      rintro key rfl
      rw [← Dict.contains_iff, Dict.contains, Dict.get?_set_self]; rfl
    by_cases ht : t = 0
    · rw [if_pos ht, if_pos ht]
      exact ⟨_, rfl, hval, hmem, hself⟩
    · rw [if_neg ht, if_neg ht]
      have hk := hmem _ (hp st (by rw [hst]; rfl) (Nat.pos_of_ne_zero ht))
      rw [← Dict.contains_iff, Dict.contains, Option.isSome_iff_exists] at hk
      obtain ⟨v, hg⟩ := hk
      have e := hval _ _ hg
      dsimp only at e
      subst e
      rw [Dict.getE_of_get? hg]
      exact ⟨_, rfl, hval, hmem, hself⟩

theorem foldl_set_ofList {K V : Type} [DecidableEq K] (l l' : List (K × V)) :
    l'.foldl (fun (d : Dict K V) p => d.set p.1 p.2) (Dict.ofList l) = Dict.ofList (l ++ l') := by
  rw [Dict.ofList, Dict.ofList, List.foldl_append]

theorem buildNode_ok {s : Study} (hi : StudyInv s) (hu : AllUsable s) {g d : String}
    {net : InputNetwork} {n : InputNode} (hg : (g, net) ∈ s.networks) (hd : (d, n) ∈ net.nodes)
    {k t : ℕ} (hk : k < s.nbScn) (ht : t < s.horizon) {b : Build} {log keys imps caps}
    (hb : Rel b log keys imps caps) (hp : 0 < t → timeCaps s (t - 1) ⊆ caps) :
    ∃ b', buildNode s k t g d b = .ok ((d, lpNodeOf g d k t n), b') ∧
      Rel b' (log ++ nodeLog g d k t n) (keys ++ [(t, g, d)]) (imps ++ nodeImports g d t n)
        (caps ++ capKeys g d t n) := by
  obtain ⟨caps', hc, h1, h2, h3⟩ := storage_addNode (g := g) (d := d) (k := k) (t := t) (n := n)
    hb.capsVal (fun st hst h0 => by
      apply hb.capsMem _ (hp h0 _)
      unfold timeCaps capKeys
      refine List.mem_flatMap.mpr ⟨_, hg, List.mem_flatMap.mpr ⟨_, hd, ?_⟩⟩
      refine List.mem_map.mpr ⟨st, ?_, rfl⟩
      cases hs : n.storages with
      | nil => rw [hs] at hst; simp at hst
      | cons a l => rw [hs] at hst; simp at hst; simp [hst])
  unfold buildNode
  rw [getNodeVar_ok hi hu hg hd hk ht]
  simp only [bind, Except.bind]
  rw [hc]
  refine ⟨_, rfl, ⟨?_, ?_, ?_, h1, ?_⟩⟩
  · rw [hb.log]; simp only [nodeLog, List.append_assoc]
  · rw [hb.keys]
  · rw [hb.imports]
    dsimp only
    rw [foldl_set_ofList]
    simp [AdequacyBuilder.importsOf, lpNodeOf, nodeImports, Function.comp_def]
  · intro key hkey
    rcases List.mem_append.mp hkey with h | h
    · exact h2 _ (hb.capsMem _ h)
    · exact h3 _ h

theorem buildNet_ok {s : Study} (hi : StudyInv s) (hu : AllUsable s) {p : String × InputNetwork}
    (hg : p ∈ s.networks) {k t : ℕ} (hk : k < s.nbScn) (ht : t < s.horizon) {b : Build}
    {log keys imps caps} (hb : Rel b log keys imps caps) (hp : 0 < t → timeCaps s (t - 1) ⊆ caps) :
    ∃ b', buildNet s k t p b =
        .ok ((p.1, p.2.nodes.map fun q => (q.1, lpNodeOf p.1 q.1 k t q.2)), b') ∧
      Rel b' (log ++ p.2.nodes.flatMap fun q => nodeLog p.1 q.1 k t q.2)
        (keys ++ p.2.nodes.map fun q => (t, p.1, q.1))
        (imps ++ p.2.nodes.flatMap fun q => nodeImports p.1 q.1 t q.2)
        (caps ++ p.2.nodes.flatMap fun q => capKeys p.1 q.1 t q.2) := by
  obtain ⟨b', hl, hr⟩ := loopM_ind (f := fun q b => buildNode s k t p.1 q.1 b) (l := p.2.nodes)
    (b := b) (out := fun q => (q.1, lpNodeOf p.1 q.1 k t q.2))
    (P := fun pre b => Rel b (log ++ pre.flatMap fun q => nodeLog p.1 q.1 k t q.2)
        (keys ++ pre.map fun q => (t, p.1, q.1))
        (imps ++ pre.flatMap fun q => nodeImports p.1 q.1 t q.2)
        (caps ++ pre.flatMap fun q => capKeys p.1 q.1 t q.2)) (by simpa using hb)
    (by
      intro pre x post e b hb
      obtain ⟨b', h1, h2⟩ := buildNode_ok hi hu (net := p.2) (d := x.1) (n := x.2) (g := p.1) hg
        (by rw [e]; simp) hk ht hb (fun h0 => List.Subset.trans (hp h0) (List.subset_append_left _ _))
      refine ⟨b', h1, ?_⟩
      simpa using h2)
  refine ⟨b', ?_, hr⟩
  unfold buildNet
  rw [hl]; rfl

theorem convSrc_mapM {s : Study} {c : Converter} {key : String} (hc : ConverterOk s key c)
    {keys : List AdeqKey} {t : ℕ} (hk : ∀ g d n, HasNode s g d n → (t, g, d) ∈ keys) :
    (c.srcRatios.map fun p => (p.1, Var.convSrc t c.name p.1)).mapM (AdequacyBuilder.srcCoef keys t) =
      .ok (c.srcRatios.map fun p =>
        .setCoef (.adeq t (p.1.getD 0 "") (p.1.getD 1 "")) (.convSrc t c.name p.1) (-1)) := by
  rw [mapM_ok (g := fun p => .setCoef (.adeq t (p.1.getD 0 "") (p.1.getD 1 "")) p.2 (-1))]
  · rw [List.map_map]; rfl
  · intro p hp
    obtain ⟨q, hq, rfl⟩ := List.mem_map.mp hp
    obtain ⟨g, d, n, e, hn⟩ := hc.sources q.1 (List.mem_map.mpr ⟨q, hq, rfl⟩)
    dsimp only
    rw [e]
    simp only [AdequacyBuilder.srcCoef, AdequacyBuilder.setCoef, if_pos (hk _ _ _ hn)]
    rfl

theorem buildConv_ok {s : Study} (hi : StudyInv s) (hu : AllUsable s)
    (hc : CompleteConverters s) (hr : RatiosUsable s) {p : String × Converter}
    (hp : p ∈ s.converters) {k t : ℕ} (hk : k < s.nbScn) (ht : t < s.horizon) {b : Build}
    {log keys imps caps} (hb : Rel b log keys imps caps)
    (hkeys : ∀ g d n, HasNode s g d n → (t, g, d) ∈ keys) :
    ∃ b', buildConv s k t p.1 b = .ok ((p.1, lpConvOf k t p.2), b') ∧
      Rel b' (log ++ convLog k t p.2) keys imps caps := by
  have hok := hi.convs p hp
  obtain ⟨n, hn⟩ : ∃ n, HasNode s p.2.destNetwork p.2.destNode n := by
    rcases hok.dest with ⟨_, _, h, _⟩ | h
    · exact absurd h (hc p hp).1
    · exact h
  have hnd := hi.names.sources p hp
  unfold buildConv
  rw [getConvVar_ok hi hu hc hr hp hk ht]
  simp only [bind, Except.bind, AdequacyBuilder.addConverter, AdequacyBuilder.setCoef]
  rw [hb.keys, if_pos (show (t, (lpConvOf k t p.2).destNetwork, (lpConvOf k t p.2).destNode) ∈ keys
    from hkeys _ _ _ hn)]
  dsimp only
  rw [show (lpConvOf k t p.2).varFlowSrc =
    p.2.srcRatios.map fun q => (q.1, Var.convSrc t p.2.name q.1) from rfl, convSrc_mapM hok hkeys]
  dsimp only
  simp only [ConverterMixBuilder.addConverter]
  rw [show (lpConvOf k t p.2).srcRatios = p.2.srcRatios.map fun q => (q.1, val q.2 k t) from rfl,
    mapM_ok (g := fun q => ConverterMixBuilder.buildConstraint (.mix t p.2.name q.1) q.2
      (.convDest t p.2.name) (.convSrc t p.2.name q.1))]
  · refine ⟨_, rfl, ⟨?_, rfl, hb.imports, hb.capsVal, hb.capsMem⟩⟩
    rw [hb.log]
    simp only [convLog, convAdeq, convMix, List.append_assoc, List.flatMap_def, List.map_map]
    rfl
  · intro q hq
    obtain ⟨q', hq', rfl⟩ := List.mem_map.mp hq
    have : Dict.get? (lpConvOf k t p.2).varFlowSrc q'.1 = some (Var.convSrc t p.2.name q'.1) := by
      apply Dict.get?_of_mem
      · simpa [Dict.keys, lpConvOf, Function.comp_def] using hnd
      · exact List.mem_map.mpr ⟨q', hq', rfl⟩
    simp only [Dict.getE_of_get? this, bind, Except.bind, pure, Except.pure]
    rfl

theorem mem_timeKeys {s : Study} {g d : String} {n : InputNode} (h : HasNode s g d n) (t : ℕ) :
    (t, g, d) ∈ timeKeys s t := by
  obtain ⟨net, hg, hd⟩ := h
  exact List.mem_flatMap.mpr ⟨_, hg, List.mem_map.mpr ⟨_, hd, rfl⟩⟩

theorem buildTime_ok {s : Study} (hi : StudyInv s) (hu : AllUsable s)
    (hc : CompleteConverters s) (hr : RatiosUsable s) {k t : ℕ} (hk : k < s.nbScn)
    (ht : t < s.horizon) {b : Build} {log keys imps caps} (hb : Rel b log keys imps caps)
    (hp : 0 < t → timeCaps s (t - 1) ⊆ caps) :
    ∃ b', buildTime s k t b = .ok (timeStepOf s k t, b') ∧
      Rel b' (log ++ timeLog s k t) (keys ++ timeKeys s t) (imps ++ timeImports s t)
        (caps ++ timeCaps s t) := by
  obtain ⟨b1, hl, hr1⟩ := loopM_ind (f := buildNet s k t) (l := s.networks)
    (b := b) (out := fun p => (p.1, p.2.nodes.map fun q => (q.1, lpNodeOf p.1 q.1 k t q.2)))
    (P := fun pre b => Rel b
        (log ++ pre.flatMap fun p => p.2.nodes.flatMap fun q => nodeLog p.1 q.1 k t q.2)
        (keys ++ pre.flatMap fun p => p.2.nodes.map fun q => (t, p.1, q.1))
        (imps ++ pre.flatMap fun p => p.2.nodes.flatMap fun q => nodeImports p.1 q.1 t q.2)
        (caps ++ pre.flatMap fun p => p.2.nodes.flatMap fun q => capKeys p.1 q.1 t q.2))
    (by simpa using hb)
    (by
      intro pre x post e b hb
      obtain ⟨b', h1, h2⟩ := buildNet_ok hi hu (p := x) (by rw [e]; simp) hk ht hb
        (fun h0 => List.Subset.trans (hp h0) (List.subset_append_left _ _))
      refine ⟨b', h1, ?_⟩
      simpa using h2)
  obtain ⟨b2, hl2, hr2⟩ := loopM_ind (f := fun p b => buildConv s k t p.1 b) (l := s.converters)
    (b := b1) (out := fun p => (p.1, lpConvOf k t p.2))
    (P := fun pre b => Rel b
        (log ++ (s.networks.flatMap fun p => p.2.nodes.flatMap fun q => nodeLog p.1 q.1 k t q.2) ++
          pre.flatMap fun p => convLog k t p.2) (keys ++ timeKeys s t) (imps ++ timeImports s t)
        (caps ++ timeCaps s t))
    (by simpa [timeKeys, timeImports, timeCaps] using hr1)
    (by
      intro pre x post e b hb
      obtain ⟨b', h1, h2⟩ := buildConv_ok hi hu hc hr (p := x) (by rw [e]; simp) hk ht hb
        (fun g d n hn => List.mem_append_right _ (mem_timeKeys hn t))
      refine ⟨b', h1, ?_⟩
      simpa using h2)
  refine ⟨b2, ?_, ?_⟩
  · unfold buildTime
    rw [hl]
    simp only [bind, Except.bind]
    rw [hl2]; rfl
  · rw [List.append_assoc] at hr2; exact hr2

theorem nodup_flatMap_key {α β κ : Type} {l : List α} {f : α → List β} (kα : α → κ) (kβ : β → κ)
    (hl : (l.map kα).Nodup) (hf : ∀ x ∈ l, (f x).Nodup) (hk : ∀ x ∈ l, ∀ y ∈ f x, kβ y = kα x) :
    (l.flatMap f).Nodup := by
  induction l with
  | nil => simp
  | cons a l ih =>
    rw [List.map_cons, List.nodup_cons] at hl
    rw [List.flatMap_cons, List.nodup_append]
    refine ⟨hf a (by simp), ih hl.2 (fun x hx => hf x (by simp [hx]))
      (fun x hx => hk x (by simp [hx])), ?_⟩
    intro y hy z hz e
    subst e
    obtain ⟨x, hx, hxy⟩ := List.mem_flatMap.mp hz
    apply hl.1
    rw [← hk a (by simp) y hy, hk x (by simp [hx]) y hxy]
    exact List.mem_map.mpr ⟨x, hx, rfl⟩

theorem map_fst_flatMap {α β κ : Type} (l : List α) (f : α → List (β × κ)) :
    (l.flatMap f).map Prod.fst = l.flatMap fun x => (f x).map Prod.fst := by
  rw [List.map_flatMap]

def allImports (s : Study) : List (SubKey × Var) :=
  (List.range s.horizon).flatMap (timeImports s)

theorem zipIdx_map_fst {α β : Type} (l : List α) (f : α → β) (i : ℕ) :
    (l.zipIdx i).map (fun p => f p.1) = l.map f := by
  induction l generalizing i with
  | nil => rfl
  | cons a l ih => simp [ih]

theorem allImports_nodup {s : Study} (hi : StudyInv s) :
    ((allImports s).map Prod.fst).Nodup := by
  unfold allImports
  rw [map_fst_flatMap]
  apply nodup_flatMap_key (fun t => t) (fun k => k.1)
  · simpa using List.nodup_range
  · intro t _
    unfold timeImports
    rw [map_fst_flatMap]
    apply nodup_flatMap_key (fun p => p.1) (fun k => k.2.1)
    · exact hi.names.networks
    · intro p hp
      rw [map_fst_flatMap]
      apply nodup_flatMap_key (fun q => q.1) (fun k => k.2.2.1)
      · exact hi.names.nodes p hp
      · intro q hq
        have h := hi.names.links p.1 q.1 q.2 ⟨p.2, hp, hq⟩
        have h2 : (q.2.links.map fun l => ((t, p.1, q.1, l.dest) : SubKey)).Nodup := by
          have := h.map (f := fun x : String => ((t, p.1, q.1, x) : SubKey))
            (by intro a b e; simpa using e)
          simpa [Function.comp_def] using this
        rw [← zipIdx_map_fst _ _ 0] at h2
        simpa [nodeImports, Function.comp_def] using h2
      · intro q hq y hy
        simp only [nodeImports, List.map_map, List.mem_map] at hy
        obtain ⟨_, _, rfl⟩ := hy; rfl
    · intro p hp y hy
      simp only [nodeImports, List.mem_map, List.mem_flatMap] at hy
      obtain ⟨_, ⟨_, _, _, _, rfl⟩, rfl⟩ := hy; rfl
  · intro t _ y hy
    simp only [timeImports, nodeImports, List.mem_map, List.mem_flatMap] at hy
    obtain ⟨_, ⟨_, _, _, _, _, _, rfl⟩, rfl⟩ := hy; rfl

theorem buildAll_ok {s : Study} (hi : StudyInv s) (hu : AllUsable s)
    (hc : CompleteConverters s) (hr : RatiosUsable s) {k : ℕ} (hk : k < s.nbScn) :
    buildAll s k = .ok ((List.range s.horizon).map (timeStepOf s k), fullLog s k) := by
  obtain ⟨b, hl, hb⟩ := loopM_ind (f := buildTime s k) (l := List.range s.horizon)
    (b := ⟨[], [], [], []⟩) (out := timeStepOf s k)
    (P := fun pre b => Rel b (pre.flatMap (timeLog s k)) (pre.flatMap (timeKeys s))
        (pre.flatMap (timeImports s)) (pre.flatMap (timeCaps s)))
    ⟨rfl, rfl, rfl, by simp, by simp⟩
    (by
      intro pre t post e b hb
      have hpre : pre = List.range pre.length ∧ t = pre.length := by
        have h1 := congrArg (fun l => l.take pre.length) e
        have h2 := congrArg (fun l => l[pre.length]?) e
        have hlen : pre.length < s.horizon := by
          have := congrArg List.length e
          simp at this; omega
        simp only [List.take_range, List.take_left'] at h1
        simp [hlen] at h2
        rw [min_eq_left (by omega)] at h1
        exact ⟨h1.symm, h2.symm⟩
      have ht : t < s.horizon := by
        have : t ∈ List.range s.horizon := by rw [e]; simp
        simpa using this
      obtain ⟨b', h1, h2⟩ := buildTime_ok hi hu hc hr hk ht hb (fun h0 => by
        intro x hx
        refine List.mem_flatMap.mpr ⟨t - 1, ?_, hx⟩
        rw [hpre.1, List.mem_range]
        have := hpre.2
        omega)
      refine ⟨b', h1, ?_⟩
      simpa using h2)
  unfold buildAll
  rw [hl]
  simp only [bind, Except.bind, AdequacyBuilder.build]
  rw [hb.imports, hb.keys, hb.log]
  rw [show (List.range s.horizon).flatMap (timeImports s) = allImports s from rfl,
    Dict.ofList_of_nodup (allImports_nodup hi)]
  rw [mapM_ok (g := fun p => .setCoef (.adeq p.1.1 p.1.2.1 p.1.2.2.2) p.2 1)]
  · simp only [fullLog, importLog, pure, Except.pure, allImports, List.map_flatMap]
  · intro p hp
    obtain ⟨t, ht, hp⟩ := List.mem_flatMap.mp hp
    simp only [timeImports, List.mem_flatMap, nodeImports, List.mem_map] at hp
    obtain ⟨a, ha, q, hq, l, hlm, rfl⟩ := hp
    have hd := hi.links a.1 a.2 ha q.1 q.2 hq l.1 (mem_of_mem_zipIdx hlm)
    obtain ⟨⟨d', n'⟩, hm, hd⟩ := List.mem_map.mp hd
    dsimp only at hd
    unfold AdequacyBuilder.setCoef
    rw [if_pos]
    refine List.mem_flatMap.mpr ⟨t, ht, List.mem_flatMap.mpr ⟨a, ha, List.mem_map.mpr ⟨_, hm, ?_⟩⟩⟩
    simp [hd]

end Hadar
