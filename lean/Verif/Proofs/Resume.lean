import Verif.Spec.Resume
import Verif.Proofs.Fluent
import Verif.Proofs.Json

/-!
# Lemmas on programs that go on with a study
-/

namespace Hadar

open Spec

/-! ### What a file loses -/

/-- a converter where the integer `0` is the series `0` -/
def fillConv (h n : ℕ) (c : Converter) : Converter := { c with cost := filledField h n c.cost, max := filledField h n c.max }

/-- the converters `K` so -/
def fillOn (K : List String) (h n : ℕ) (d : Dict String Converter) : Dict String Converter :=
  d.map fun p => (p.1, if p.1 ∈ K then fillConv h n p.2 else p.2)

variable {K : List String}

/-- `s` only differs from `t` by that -/
structure Alike' (K : List String) (s t : Study) : Prop where
  version : t.version = s.version
  networks : t.networks = s.networks
  horizon : t.horizon = s.horizon
  nbScn : t.nbScn = s.nbScn
  converters : s.converters = fillOn K s.horizon s.nbScn t.converters
  known : ∀ k ∈ K, k ∈ t.converters.keys

theorem fillOn_keys (h n : ℕ) (d : Dict String Converter) : (fillOn K h n d).keys = d.keys := by
  unfold fillOn Dict.keys
  rw [List.map_map]; rfl

theorem fillOn_get (h n : ℕ) (d : Dict String Converter) (k : String) :
    (fillOn K h n d).get? k = (d.get? k).map fun c => if k ∈ K then fillConv h n c else c := by
  induction d with
  | nil => rfl
  | cons p d ih =>
    show (if p.1 = k then _ else Dict.get? (fillOn K h n d) k) = (if p.1 = k then _ else Dict.get? d k).map _
    by_cases e : p.1 = k
    · rw [if_pos e, if_pos e, e]
      rfl
    · rw [if_neg e, if_neg e]
      exact ih

theorem fillOn_set (h n : ℕ) (d : Dict String Converter) {k : String} (c : Converter) (hk : k ∉ K) :
    fillOn K h n (d.set k c) = (fillOn K h n d).set k c := by
  induction d with
  | nil =>
    show [(k, if k ∈ K then _ else _)] = [(k, c)]
    rw [if_neg hk]
  | cons p d ih =>
    show fillOn K h n (if p.1 = k then _ else _) = (if p.1 = k then _ else _)
    by_cases e : p.1 = k
    · rw [if_pos e, if_pos e]
      subst e
      show (_, if p.1 ∈ K then _ else _) :: _ = _
      rw [if_neg hk]
    · rw [if_neg e, if_neg e]
      show _ :: fillOn K h n (Dict.set d k c) = _
      rw [ih]; rfl

theorem fillOn_modify {h n : ℕ} (d : Dict String Converter) (k : String) {f : Converter → Converter}
    (hf : ∀ c, fillConv h n (f c) = f (fillConv h n c)) :
    fillOn K h n (d.modify k f) = (fillOn K h n d).modify k f := by
  induction d with
  | nil => rfl
  | cons p d ih =>
    show fillOn K h n (if p.1 = k then _ else _) = (if p.1 = k then _ else _)
    by_cases e : p.1 = k
    · rw [if_pos e, if_pos e]
      show (p.1, if p.1 ∈ K then fillConv h n (f p.2) else f p.2) :: _ = (p.1, f (if p.1 ∈ K then fillConv h n p.2 else p.2)) :: _
      rw [hf, apply_ite f]
    · rw [if_neg e, if_neg e]
      show _ :: fillOn K h n (Dict.modify d k f) = _
      rw [ih]; rfl

theorem Alike'.upd {s t : Study} (h : Alike' K s t) (k : String) {f : Converter → Converter}
    (hf : ∀ h n c, fillConv h n (f c) = f (fillConv h n c)) : Alike' K (s.updConv k f) (t.updConv k f) where
  version := h.version
  networks := h.networks
  horizon := h.horizon
  nbScn := h.nbScn
  converters := by
    show s.converters.modify k f = fillOn K s.horizon s.nbScn (t.converters.modify k f)
    rw [fillOn_modify _ _ (hf _ _), ← h.converters]
  known := by
    intro k' hk'
    show k' ∈ Dict.keys (Dict.modify t.converters k f)
    rw [Dict.keys_modify]
    exact h.known k' hk'

/-- the same outcome on studies that only differ by what a file loses -/
def SameOn {α : Type} (K : List String) (s t : Study) (p q : PyM Study α) : Prop := (q t).1 = (p s).1 ∧ Alike' K (p s).2 (q t).2

theorem SameOn.bind {α β : Type} {s t : Study} {p q : PyM Study α} {k l : α → PyM Study β} (h : SameOn K s t p q)
    (hk : ∀ x s' t', Alike' K s' t' → SameOn K s' t' (k x) (l x)) : SameOn K s t (p >>= k) (q >>= l) := by
  obtain ⟨h1, h2⟩ := h
  unfold SameOn
  rw [PyM.bind_run, PyM.bind_run]
  revert h1 h2
  rcases p s with ⟨a, s'⟩
  rcases q t with ⟨b, t'⟩
  rintro h1 h2
  simp only at h1 h2
  subst h1
  cases b with
  | error e => exact ⟨rfl, h2⟩
  | ok x => exact hk x s' t' h2

theorem SameOn.get {β : Type} {s t : Study} {k l : Study → PyM Study β} (h : SameOn K s t (k s) (l t)) :
    SameOn K s t (PyM.get >>= k) (PyM.get >>= l) := h

theorem SameOn.pure {α : Type} {s t : Study} (h : Alike' K s t) (x : α) : SameOn K s t (Pure.pure x) (Pure.pure x) := ⟨rfl, h⟩

theorem SameOn.raise {α : Type} {s t : Study} (h : Alike' K s t) (e : PyErr) :
    SameOn (α := α) K s t (PyM.raise e) (PyM.raise e) := ⟨rfl, h⟩

theorem SameOn.lift {α : Type} {s t : Study} (h : Alike' K s t) (e : Except PyErr α) :
    SameOn K s t (PyM.lift e) (PyM.lift e) := ⟨rfl, h⟩

theorem SameOn.modify {s t : Study} {f g : Study → Study} (h : Alike' K (f s) (g t)) :
    SameOn K s t (PyM.modify f) (PyM.modify g) := ⟨rfl, h⟩

theorem SameOn.create {s t : Study} (h : Alike' K s t) (r : Raw) : SameOn K s t (Study.create r) (Study.create r) := by
  unfold Study.create
  refine .get ?_
  have : t.factory = s.factory := by unfold Study.factory; rw [h.horizon, h.nbScn]
  rw [this]
  exact .lift h _

theorem SameOn.getNode {s t : Study} (h : Alike' K s t) (g d : String) :
    SameOn K s t (Study.getNode g d) (Study.getNode g d) := by
  unfold Study.getNode
  refine .get ?_
  rw [h.networks]
  exact .bind (.lift h _) fun _ _ _ h' => .lift h' _

/-- an exception, or the rest -/
theorem SameOn.check {β : Type} {s t : Study} {c : Prop} [Decidable c] (h : Alike' K s t) {e : PyErr}
    {k l : PUnit → PyM Study β} (hk : SameOn K s t (k ⟨⟩) (l ⟨⟩)) :
    SameOn K s t (if c then (PyM.raise e >>= k) else k ⟨⟩) (if c then (PyM.raise e >>= l) else l ⟨⟩) := by
  split_ifs
  · exact ⟨rfl, h⟩
  · exact hk

theorem Alike'.updNode {s t : Study} (h : Alike' K s t) (g d : String) (f : InputNode → InputNode) :
    Alike' K (s.updNode g d f) (t.updNode g d f) where
  version := h.version
  networks := by
    show Dict.modify t.networks _ _ = Dict.modify s.networks _ _
    rw [h.networks]
  horizon := h.horizon
  nbScn := h.nbScn
  converters := h.converters
  known := h.known

theorem addLink_same {s t : Study} (h : Alike' K s t) (g a b : String) (c q : Raw) :
    SameOn K s t (Study.addLink g a b c q) (Study.addLink g a b c q) := by
  unfold Study.addLink
  refine .get ?_
  rw [h.networks]
  refine .bind (.lift h _) fun net s t h => ?_
  refine .check h ?_
  refine .check h ?_
  refine .bind (.getNode h _ _) fun n s t h => ?_
  refine .check h ?_
  refine .bind (.create h _) fun _ s t h => ?_
  refine .check h ?_
  refine .bind (.create h _) fun _ s t h => ?_
  exact .modify (h.updNode _ _ _)

theorem addNetwork_same {s t : Study} (h : Alike' K s t) (g : String) :
    SameOn K s t (Study.addNetwork g) (Study.addNetwork g) := by
  unfold Study.addNetwork
  refine .get ?_
  rw [h.networks]
  split_ifs
  · exact ⟨rfl, h⟩
  · exact ⟨rfl, h.version, by show Dict.set t.networks _ _ = Dict.set s.networks _ _; rw [h.networks], h.horizon, h.nbScn,
      h.converters, h.known⟩

theorem addNode_same {s t : Study} (h : Alike' K s t) (g d : String) :
    SameOn K s t (Study.addNode g d) (Study.addNode g d) := by
  unfold Study.addNode
  refine .get ?_
  rw [h.networks]
  refine .bind (.lift h _) fun net s t h => ?_
  split_ifs
  · exact ⟨rfl, h⟩
  · exact ⟨rfl, h.version, by show Dict.modify t.networks _ _ = Dict.modify s.networks _ _; rw [h.networks], h.horizon, h.nbScn,
      h.converters, h.known⟩

theorem addProduction_same {s t : Study} (h : Alike' K s t) (g a b : String) (c q : Raw) :
    SameOn K s t (Study.addProduction g a b c q) (Study.addProduction g a b c q) := by
  unfold Study.addProduction
  refine .bind (.getNode h _ _) fun n s t h => ?_
  refine .check h ?_
  refine .bind (.create h _) fun _ s t h => ?_
  refine .check h ?_
  refine .bind (.create h _) fun _ s t h => ?_
  exact .modify (h.updNode _ _ _)

theorem addConsumption_same {s t : Study} (h : Alike' K s t) (g a b : String) (c q : Raw) :
    SameOn K s t (Study.addConsumption g a b c q) (Study.addConsumption g a b c q) := by
  unfold Study.addConsumption
  refine .bind (.getNode h _ _) fun n s t h => ?_
  refine .check h ?_
  refine .bind (.create h _) fun _ s t h => ?_
  refine .check h ?_
  refine .bind (.create h _) fun _ s t h => ?_
  exact .modify (h.updNode _ _ _)

theorem addStorage_same {s t : Study} (h : Alike' K s t) (g d : String) (a : Study.StorageArgs) :
    SameOn K s t (Study.addStorage g d a) (Study.addStorage g d a) := by
  unfold Study.addStorage
  refine .bind (.getNode h _ _) fun n s t h => ?_
  refine .check h ?_
  refine .bind (.create h _) fun _ s t h => ?_
  refine .bind (.create h _) fun _ s t h => ?_
  refine .check h ?_
  refine .bind (.create h _) fun _ s t h => ?_
  refine .check h ?_
  refine .bind (.create h _) fun _ s t h => ?_
  refine .check h ?_
  refine .bind (.create h _) fun _ s t h => ?_
  exact .modify (h.updNode _ _ _)

theorem Alike'.keys {s t : Study} (h : Alike' K s t) : t.converters.keys = s.converters.keys := by
  rw [h.converters, fillOn_keys]

theorem addConverter_same {s t : Study} (h : Alike' K s t) (name : String) :
    SameOn K s t (Study.addConverter name) (Study.addConverter name) := by
  unfold Study.addConverter
  refine .get ?_
  rw [h.keys]
  split_ifs
  · exact ⟨rfl, h⟩
  · rename_i hn
    refine .modify ⟨h.version, h.networks, h.horizon, h.nbScn, ?_, ?_⟩
    · show Dict.set s.converters _ _ = fillOn K _ _ (Dict.set t.converters _ _)
      rw [fillOn_set _ _ _ _ fun hk => hn (h.keys ▸ h.known _ hk), ← h.converters]
    · intro k hk
      show k ∈ Dict.keys (Dict.set t.converters _ _)
      rw [Dict.keys_set_of_not_mem (h.keys ▸ hn)]
      exact List.mem_append_left _ (h.known k hk)

/-- the converter of a name, in both studies -/
theorem SameOn.conv {β : Type} {s t : Study} (h : Alike' K s t) (name : String) {k l : Converter → PyM Study β}
    (hk : ∀ c c', c'.srcRatios = c.srcRatios → c'.destNetwork = c.destNetwork → c'.destNode = c.destNode →
      SameOn K s t (k c) (l c')) :
    SameOn K s t (PyM.lift (Dict.getE s.converters name) >>= k) (PyM.lift (Dict.getE t.converters name) >>= l) := by
  have he : s.converters.get? name = (t.converters.get? name).map fun c => if name ∈ K then fillConv s.horizon s.nbScn c else c := by
    rw [← fillOn_get, ← h.converters]
  unfold SameOn
  simp only [PyM.bind_run, PyM.lift_run, Dict.getE]
  revert he
  cases s.converters.get? name with
  | none =>
    cases t.converters.get? name with
    | none => exact fun _ => ⟨rfl, h⟩
    | some c' => exact fun e => by simp at e
  | some c =>
    cases t.converters.get? name with
    | none => exact fun e => by simp at e
    | some c' =>
      intro e
      simp only [Option.map_some, Option.some.injEq] at e
      subst e
      split_ifs at * <;> exact hk _ _ rfl rfl rfl

theorem addConverterSrc_same {s t : Study} (h : Alike' K s t) (name g d : String) (r : Raw) :
    SameOn K s t (Study.addConverterSrc name g d r) (Study.addConverterSrc name g d r) := by
  unfold Study.addConverterSrc
  refine .get ?_
  refine .conv h name fun c c' e1 _ _ => ?_
  rw [e1]
  refine .check h ?_
  refine .bind (.create h _) fun _ s t h => ?_
  exact .modify (h.upd _ fun _ _ _ => rfl)

theorem setConverterDest_same {s t : Study} (h : Alike' K s t) (name g d : String) (c_1 q : Raw) :
    SameOn K s t (Study.setConverterDest name g d c_1 q) (Study.setConverterDest name g d c_1 q) := by
  unfold Study.setConverterDest
  refine .get ?_
  rw [h.networks]
  refine .conv h name fun c c' _ e2 e3 => ?_
  rw [e2, e3]
  refine .check h ?_
  have hrest : ∀ s t, Alike' K s t → SameOn K s t (do
      PyM.modify (fun s => s.updConv name (fun c => { c with destNetwork := g }))
      PyM.modify (fun s => s.updConv name (fun c => { c with destNode := d }))
      let cost ← Study.create c_1
      PyM.modify (fun s => s.updConv name (fun c => { c with cost := .val cost }))
      let max ← Study.create q
      PyM.modify (fun s => s.updConv name (fun c => { c with max := .val max }))) (do
      PyM.modify (fun s => s.updConv name (fun c => { c with destNetwork := g }))
      PyM.modify (fun s => s.updConv name (fun c => { c with destNode := d }))
      let cost ← Study.create c_1
      PyM.modify (fun s => s.updConv name (fun c => { c with cost := .val cost }))
      let max ← Study.create q
      PyM.modify (fun s => s.updConv name (fun c => { c with max := .val max }))) := by
    intro s t h
    refine .bind (.modify (h.upd _ fun _ _ _ => rfl)) fun _ s t h => ?_
    refine .bind (.modify (h.upd _ fun _ _ _ => rfl)) fun _ s t h => ?_
    refine .bind (.create h _) fun _ s t h => ?_
    refine .bind (.modify (h.upd _ fun _ _ _ => rfl)) fun _ s t h => ?_
    refine .bind (.create h _) fun _ s t h => ?_
    exact .modify (h.upd _ fun _ _ _ => rfl)
  cases s.networks.get? g with
  | none => exact ⟨rfl, h⟩
  | some net =>
    refine .check h ?_
    exact hrest _ _ h

/-! ### Worlds -/

/-- the same world, with other selectors made before, up to what a file loses -/
structure Beside (K : List String) (H : List Sel) (w v : World) : Prop where
  study : Alike' K w.study v.study
  heap : v.heap = H ++ w.heap

/-- a step that does the same in such worlds -/
def Same {α : Type} (K : List String) (H : List Sel) (f : α → α) (p q : PyM World α) : Prop :=
  ∀ w v, Beside K H w v → (p v).1 = (q w).1.map f ∧ Beside K H (q w).2 (p v).2

theorem Same.pure {α : Type} {H : List Sel} {f : α → α} (x : α) : Same K H f (Pure.pure (f x) : PyM World α) (Pure.pure x) :=
  fun _ _ h => ⟨rfl, h⟩

theorem same_bind {α β : Type} {H : List Sel} {fa : α → α} {f : β → β} {p q : PyM World α} {k l : α → PyM World β}
    (h : Same K H fa p q) (hk : ∀ x, Same K H f (k (fa x)) (l x)) : Same K H f (p >>= k) (q >>= l) := by
  intro w v hb
  obtain ⟨h1, h2⟩ := h w v hb
  rw [PyM.bind_run, PyM.bind_run]
  revert h1 h2
  rcases q w with ⟨a, w'⟩
  rcases p v with ⟨b, v'⟩
  rintro h1 h2
  simp only at h1 h2
  subst h1
  cases a with
  | error e => exact ⟨rfl, h2⟩
  | ok x => exact hk x w' v' h2

theorem same_raise {α : Type} {H : List Sel} {f : α → α} (e : PyErr) : Same K H f (PyM.raise e) (PyM.raise e) :=
  fun _ _ h => ⟨rfl, h⟩

theorem same_onStudy {α : Type} {H : List Sel} {m : PyM Study α} (hm : ∀ s t, Alike' K s t → SameOn K s t m m) :
    Same K H id (World.onStudy m) (World.onStudy m) := by
  intro w v h
  obtain ⟨h1, h2⟩ := hm _ _ h.study
  unfold World.onStudy
  revert h1 h2
  rcases m w.study with ⟨r, s⟩
  rcases m v.study with ⟨r', s'⟩
  rintro h1 h2
  simp only at h1 h2
  subst h1
  exact ⟨by cases r' <;> rfl, h2, h.heap⟩

theorem same_selOf {H : List Sel} (ref : ℕ) : Same K H id (World.selOf (H.length + ref)) (World.selOf ref) := by
  intro w v h
  unfold World.selOf
  rw [h.heap, List.getElem?_append_right (by omega), Nat.add_sub_cancel_left]
  cases w.heap[ref]? <;> exact ⟨rfl, h⟩

theorem same_selNetwork {H : List Sel} (ref : ℕ) : Same K H id (World.selNetwork (H.length + ref)) (World.selNetwork ref) := by
  unfold World.selNetwork
  refine same_bind (same_selOf ref) fun x => ?_
  show Same K H id (match x.network with
    | some n => Pure.pure n
    | none => PyM.raise .keyError) _
  cases x.network with
  | none => exact same_raise _
  | some n => exact Same.pure (f := id) n

theorem same_selNode {H : List Sel} (ref : ℕ) : Same K H id (World.selNode (H.length + ref)) (World.selNode ref) := by
  unfold World.selNode
  refine same_bind (same_selOf ref) fun x => ?_
  show Same K H id (match x.node with
    | some n => Pure.pure n
    | none => PyM.raise .keyError) _
  cases x.node with
  | none => exact same_raise _
  | some n => exact Same.pure (f := id) n

theorem same_alloc {H : List Sel} (s : Sel) : Same K H (fun r => H.length + r) (World.alloc s) (World.alloc s) := by
  intro w v h
  unfold World.alloc
  refine ⟨?_, h.study, ?_⟩
  · simp [Except.map, h.heap]
  · simp [h.heap]

theorem same_modify {H : List Sel} (ref : ℕ) (g : Sel → Sel) :
    Same K H id (PyM.modify fun w : World => { w with heap := w.heap.modify (H.length + ref) g })
      (PyM.modify fun w : World => { w with heap := w.heap.modify ref g }) := by
  intro w v h
  unfold PyM.modify
  refine ⟨rfl, h.study, ?_⟩
  simp only [h.heap]
  clear h
  induction H with
  | nil => simp
  | cons a H ih =>
    have : (a :: H).length + ref = (H.length + ref) + 1 := by simp; omega
    rw [this, List.cons_append, List.modify_succ_cons, ih]
    rfl

theorem same_network {H : List Sel} (name : String) :
    Same K H (Handle.later H.length) (World.network name) (World.network name) := by
  unfold World.network
  refine same_bind (same_onStudy fun _ _ h => addNetwork_same h _) fun _ => same_bind (same_alloc _) fun r => ?_
  exact Same.pure (f := Handle.later H.length) (.net r)

theorem same_node {H : List Sel} (ref : ℕ) (name : String) :
    Same K H (Handle.later H.length) (World.node (H.length + ref) name) (World.node ref name) := by
  unfold World.node
  refine same_bind (same_selOf ref) fun _ => same_bind (same_modify ref _) fun _ =>
    same_bind (same_selNetwork ref) fun _ => same_bind (same_onStudy fun _ _ h => addNode_same h _ _) fun _ => ?_
  exact Same.pure (f := Handle.later H.length) (.node ref)

theorem same_link {H : List Sel} (ref : ℕ) (src dest : String) (cost quantity : Raw) :
    Same K H (Handle.later H.length) (World.link (H.length + ref) src dest cost quantity)
      (World.link ref src dest cost quantity) := by
  unfold World.link
  refine same_bind (same_selNetwork ref) fun _ => same_bind (same_onStudy fun _ _ h => addLink_same h _ _ _ _ _) fun _ => ?_
  exact Same.pure (f := Handle.later H.length) (.net ref)

theorem same_converter {H : List Sel} (name g d : String) (max cost : Raw) :
    Same K H (Handle.later H.length) (World.converter name g d max cost) (World.converter name g d max cost) := by
  unfold World.converter
  refine same_bind (same_onStudy fun _ _ h => addConverter_same h _) fun _ =>
    same_bind (same_onStudy fun _ _ h => setConverterDest_same h _ _ _ _ _) fun _ => same_bind (same_alloc _) fun r => ?_
  exact Same.pure (f := Handle.later H.length) (.net r)

theorem same_step {H : List Sel} (c : Call) :
    Same K H (Handle.later H.length) (World.step (later H.length c)) (World.step c) := by
  have hn : ∀ (ref : ℕ) (m : String → String → PyM Study Unit), (∀ g d s t, Alike' K s t → SameOn K s t (m g d) (m g d)) →
      Same K H (Handle.later H.length)
      (do let net ← World.selNetwork (H.length + ref); let nd ← World.selNode (H.length + ref)
          World.onStudy (m net nd); pure (.node (H.length + ref)))
      (do let net ← World.selNetwork ref; let nd ← World.selNode ref
          World.onStudy (m net nd); pure (.node ref)) := fun ref m hm =>
    same_bind (same_selNetwork ref) fun _ => same_bind (same_selNode ref) fun _ => same_bind (same_onStudy (hm _ _)) fun _ =>
      Same.pure (f := Handle.later H.length) (.node ref)
  have hs : ∀ m : PyM Study Unit, (∀ s t, Alike' K s t → SameOn K s t m m) → Same K H (Handle.later H.length)
      (do World.onStudy m; pure .study) (do World.onStudy m; pure .study) := fun m hm =>
    same_bind (same_onStudy hm) fun _ => Same.pure (f := Handle.later H.length) .study
  cases c with
  | studyNetwork name => exact same_network name
  | studyAddNetwork name => exact hs _ fun _ _ h => addNetwork_same h _
  | studyAddNode g d => exact hs _ fun _ _ h => addNode_same h _ _
  | studyAddLink g a b c q => exact hs _ fun _ _ h => addLink_same h _ _ _ _ _
  | netNode ref name => exact same_node ref name
  | netLink ref a b c q => exact same_link ref a b c q
  | netNetwork ref name => exact same_network name
  | netConverter ref a b c d e => exact same_converter a b c d e
  | nodeConsumption ref a b c => exact hn ref _ fun _ _ _ _ h => addConsumption_same h _ _ _ _ _
  | nodeProduction ref a b c => exact hn ref _ fun _ _ _ _ h => addProduction_same h _ _ _ _ _
  | nodeStorage ref a => exact hn ref _ fun _ _ _ _ h => addStorage_same h _ _ _
  | nodeNode ref name => exact same_node ref name
  | nodeLink ref a b c q => exact same_link ref a b c q
  | nodeNetwork ref name => exact same_network name
  | nodeConverter ref a b c d e => exact same_converter a b c d e
  | nodeToConverter ref name ratio =>
    exact same_bind (same_onStudy fun _ _ h => addConverter_same h _) fun _ =>
      hn ref _ fun _ _ _ _ h => addConverterSrc_same h _ _ _ _

theorem run_beside {H : List Sel} {w v : World} (h : Beside K H w v) (cs : List Call) :
    Beside K H (w.run cs) (v.run (cs.map (later H.length))) := by
  induction cs generalizing w v with
  | nil => exact h
  | cons c cs ih => exact ih (same_step c w v h).2

theorem outcomes_beside {H : List Sel} {w v : World} (h : Beside K H w v) (cs : List Call) :
    outcomes v (cs.map (later H.length)) = (outcomes w cs).map (Except.map (Handle.later H.length)) := by
  induction cs generalizing w v with
  | nil => rfl
  | cons c cs ih =>
    exact congrArg₂ List.cons (same_step c w v h).1 (ih (same_step c w v h).2)

end Hadar
