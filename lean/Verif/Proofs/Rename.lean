import Verif.Spec.Rename
import Verif.Proofs.LPReady
import Verif.Proofs.LPDispatch

/-!
# Names do not matter
-/

namespace Hadar

open Spec

/-! ### Dicts -/

section

variable {K K' V V' : Type} [DecidableEq K] [DecidableEq K'] {f : K → K'} {g : V → V'}

theorem dict_get? (hf : Function.Injective f) (d : Dict K V) (k : K) :
    Dict.get? (Names.dict f g d) (f k) = (Dict.get? d k).map g := by
  induction d with
  | nil => rfl
  | cons p d ih =>
    obtain ⟨k', v⟩ := p
    simp only [Names.dict, List.map_cons, Dict.get?, hf.eq_iff] at ih ⊢
    split_ifs
    · rfl
    · exact ih

theorem dict_getE (hf : Function.Injective f) (d : Dict K V) (k : K) :
    Dict.getE (Names.dict f g d) (f k) = (Dict.getE d k).map g := by
  unfold Dict.getE
  rw [dict_get? hf]
  cases Dict.get? d k <;> rfl

theorem dict_contains (hf : Function.Injective f) (d : Dict K V) (k : K) :
    Dict.contains (Names.dict f g d) (f k) = Dict.contains d k := by
  unfold Dict.contains
  rw [dict_get? hf]
  cases Dict.get? d k <;> rfl

theorem dict_set (hf : Function.Injective f) (d : Dict K V) (k : K) (v : V) :
    Dict.set (Names.dict f g d) (f k) (g v) = Names.dict f g (Dict.set d k v) := by
  induction d with
  | nil => rfl
  | cons p d ih =>
    obtain ⟨k', v'⟩ := p
    simp only [Names.dict, List.map_cons, Dict.set, hf.eq_iff] at ih ⊢
    split_ifs
    · rfl
    · rw [ih]; rfl

theorem dict_modify (hf : Function.Injective f) (d : Dict K V) (k : K) {u : V → V} {u' : V' → V'} (hu : ∀ v, u' (g v) = g (u v)) :
    Dict.modify (Names.dict f g d) (f k) u' = Names.dict f g (Dict.modify d k u) := by
  induction d with
  | nil => rfl
  | cons p d ih =>
    obtain ⟨k', v'⟩ := p
    simp only [Names.dict, List.map_cons, Dict.modify, hf.eq_iff] at ih ⊢
    split_ifs
    · rw [hu]; rfl
    · rw [ih]; rfl

theorem dict_keys (hf : Function.Injective f) (d : Dict K V) (k : K) :
    f k ∈ Dict.keys (Names.dict f g d) ↔ k ∈ Dict.keys d := by
  simp only [Dict.keys, Names.dict, List.map_map, List.mem_map, Function.comp]
  constructor
  · rintro ⟨p, hp, e⟩
    exact ⟨p, hp, hf e⟩
  · rintro ⟨p, hp, e⟩
    exact ⟨p, hp, by rw [e]⟩

end

theorem Spec.Names.Ok.key {ρ : Names} (h : ρ.Ok) : Function.Injective ρ.key := by
  have len : ∀ l, (ρ.key l).length = l.length := by
    intro l
    unfold Names.key
    split <;> rfl
  intro a b e
  have el := len a
  rw [e, len b] at el
  match a, b, el with
  | [], [], _ => rfl
  | [_], [_], _ => exact e
  | [g, d], [g', d'], _ =>
    simp only [Names.key, List.cons.injEq, and_true] at e
    rw [h.net e.1, h.node e.2]
  | _ :: _ :: _ :: _, _ :: _ :: _ :: _, _ => exact e

/-! ### Programs -/

/-- `m'` does under other names what `m` does -/
def Renames {σ σ' α α' : Type} (R : σ → σ') (f : α → α') (m : PyM σ α) (m' : PyM σ' α') : Prop :=
  ∀ s, m' (R s) = ((m s).1.map f, R (m s).2)

namespace Renames

variable {σ σ' α α' β β' : Type} {R : σ → σ'} {f : α → α'} {g : β → β'}

theorem pure (a : α) : Renames R f (Pure.pure a) (Pure.pure (f a)) := fun _ => rfl

theorem raise (e : PyErr) : Renames R f (PyM.raise e) (PyM.raise e) := fun _ => rfl

theorem get : Renames R R PyM.get PyM.get := fun _ => rfl

theorem lift {e : Except PyErr α} {e' : Except PyErr α'} (h : e' = e.map f) : Renames R f (PyM.lift e) (PyM.lift e') := by
  intro s; subst h; rfl

theorem modify {u : σ → σ} {u' : σ' → σ'} (h : ∀ s, u' (R s) = R (u s)) : Renames R id (PyM.modify u) (PyM.modify u') := by
  intro s
  simp only [PyM.modify_run, h]
  rfl

theorem bind {m : PyM σ α} {m' : PyM σ' α'} {k : α → PyM σ β} {k' : α' → PyM σ' β'} (hm : Renames R f m m')
    (hk : ∀ a, Renames R g (k a) (k' (f a))) : Renames R g (m >>= k) (m' >>= k') := by
  intro s
  rw [PyM.bind_run, PyM.bind_run, hm s]
  rcases h : m s with ⟨e | a, s'⟩
  · rfl
  · simp only [Except.map]
    exact hk a s'

theorem ite {p p' : Prop} [Decidable p] [Decidable p'] (h : p' ↔ p) {a b : PyM σ α} {a' b' : PyM σ' α'}
    (ha : Renames R f a a') (hb : Renames R f b b') : Renames R f (if p then a else b) (if p' then a' else b') := by
  by_cases hp : p
  · rw [if_pos hp, if_pos (h.mpr hp)]; exact ha
  · rw [if_neg hp, if_neg (fun h' => hp (h.mp h'))]; exact hb

end Renames

variable {ρ : Names}

theorem map_names {α : Type} {l : List α} {nm : α → String} {u : α → α} (hu : ∀ a, nm (u a) = ρ.elem (nm a)) (h : ρ.Ok) (x : String) :
    ρ.elem x ∈ (l.map u).map nm ↔ x ∈ l.map nm := by
  simp only [List.map_map, List.mem_map, Function.comp, hu]
  constructor
  · rintro ⟨a, ha, e⟩
    exact ⟨a, ha, h.elem e⟩
  · rintro ⟨a, ha, e⟩
    exact ⟨a, ha, by rw [e]⟩

theorem renames_getNode (h : ρ.Ok) (g d : String) :
    Renames ρ.study ρ.inNode (Study.getNode g d) (Study.getNode (ρ.net g) (ρ.node d)) := by
  unfold Study.getNode
  refine .bind .get fun s => .bind (f := ρ.network) (.lift (dict_getE h.net _ _)) fun net => .lift (dict_getE h.node _ _)

theorem renames_create (r : Raw) : Renames ρ.study id (Study.create r) (Study.create r) := by
  unfold Study.create
  refine .bind .get fun s => .lift ?_
  have : (ρ.study s).factory = s.factory := rfl
  rw [this]
  cases s.factory.create r <;> rfl

theorem renames_updNode (h : ρ.Ok) (g d : String) {u u' : InputNode → InputNode} (hu : ∀ n, u' (ρ.inNode n) = ρ.inNode (u n)) (s : Study) :
    (ρ.study s).updNode (ρ.net g) (ρ.node d) u' = ρ.study (s.updNode g d u) := by
  unfold Study.updNode Study.updNet Names.study
  simp only
  congr 1
  refine dict_modify h.net _ _ fun net => ?_
  unfold Names.network
  simp only
  congr 1
  exact dict_modify h.node _ _ hu

theorem renames_updConv (h : ρ.Ok) (c : String) {u u' : Converter → Converter} (hu : ∀ n, u' (ρ.converter n) = ρ.converter (u n)) (s : Study) :
    (ρ.study s).updConv (ρ.conv c) u' = ρ.study (s.updConv c u) := by
  unfold Study.updConv Names.study
  simp only
  congr 1
  exact dict_modify h.conv _ _ hu

theorem renames_check {σ σ' α α' : Type} {R : σ → σ'} {f : α → α'} {p p' : Prop} [Decidable p] [Decidable p'] {e : PyErr}
    {jp : PUnit → PyM σ α} {jp' : PUnit → PyM σ' α'} (h : p' ↔ p) (hj : Renames R f (jp ()) (jp' ())) :
    Renames R f (if p then PyM.raise e >>= jp else jp ()) (if p' then PyM.raise e >>= jp' else jp' ()) :=
  .ite h (fun _ => rfl) hj

theorem renames_addNetwork (h : ρ.Ok) (g : String) : Renames ρ.study id (Study.addNetwork g) (Study.addNetwork (ρ.net g)) := by
  unfold Study.addNetwork
  refine .bind .get fun s => .ite (by simp only [Names.study, dict_contains h.net]) ?_ (.pure _)
  refine .modify fun s => ?_
  simp only [Names.study]
  congr 1
  exact dict_set h.net (g := ρ.network) s.networks g ⟨[]⟩

theorem renames_addNode (h : ρ.Ok) (g d : String) : Renames ρ.study id (Study.addNode g d) (Study.addNode (ρ.net g) (ρ.node d)) := by
  unfold Study.addNode
  refine .bind .get fun s => .bind (f := ρ.network) (.lift (dict_getE h.net _ _)) fun net =>
    .ite (by simp only [Names.network, dict_contains h.node]) ?_ (.pure _)
  refine .modify fun s => ?_
  simp only [Names.study, Study.updNet]
  congr 1
  refine dict_modify h.net _ _ fun net => ?_
  simp only [Names.network]
  congr 1
  exact dict_set h.node (g := ρ.inNode) net.nodes d ⟨[], [], [], []⟩

theorem renames_addLink (h : ρ.Ok) (g a b : String) (c q : Raw) :
    Renames ρ.study id (Study.addLink g a b c q) (Study.addLink (ρ.net g) (ρ.node a) (ρ.node b) c q) := by
  unfold Study.addLink
  refine .bind .get fun s => .bind (f := ρ.network) (.lift (dict_getE h.net _ _)) fun net => ?_
  refine renames_check (by simp only [Names.network, dict_contains h.node]) ?_
  refine renames_check (by simp only [Names.network, dict_contains h.node]) ?_
  refine .bind (renames_getNode h g a) fun n => ?_
  refine renames_check (by
    simp only [Names.inNode, List.map_map, List.mem_map, Function.comp]
    exact ⟨fun ⟨l, hl, e⟩ => ⟨l, hl, h.node e⟩, fun ⟨l, hl, e⟩ => ⟨l, hl, by rw [e]⟩⟩) ?_
  refine .bind (renames_create q) fun q => ?_
  refine renames_check Iff.rfl ?_
  refine .bind (renames_create c) fun c => ?_
  refine .modify fun s => ?_
  exact renames_updNode h g a (fun n => by simp [Names.inNode]) s

theorem renames_addProduction (h : ρ.Ok) (g d x : String) (c q : Raw) :
    Renames ρ.study id (Study.addProduction g d x c q) (Study.addProduction (ρ.net g) (ρ.node d) (ρ.elem x) c q) := by
  unfold Study.addProduction
  refine .bind (renames_getNode h g d) fun n => ?_
  refine renames_check (map_names (l := n.productions) (nm := Production.name) (u := fun c => { c with name := ρ.elem c.name }) (fun _ => rfl) h x) ?_
  refine .bind (renames_create q) fun q => ?_
  refine renames_check Iff.rfl ?_
  refine .bind (renames_create c) fun c => ?_
  refine .modify fun s => ?_
  exact renames_updNode h g d (fun n => by simp [Names.inNode]) s

theorem renames_addConsumption (h : ρ.Ok) (g d x : String) (c q : Raw) :
    Renames ρ.study id (Study.addConsumption g d x c q) (Study.addConsumption (ρ.net g) (ρ.node d) (ρ.elem x) c q) := by
  unfold Study.addConsumption
  refine .bind (renames_getNode h g d) fun n => ?_
  refine renames_check (map_names (l := n.consumptions) (nm := Consumption.name) (u := fun c => { c with name := ρ.elem c.name }) (fun _ => rfl) h x) ?_
  refine .bind (renames_create q) fun q => ?_
  refine renames_check Iff.rfl ?_
  refine .bind (renames_create c) fun c => ?_
  refine .modify fun s => ?_
  exact renames_updNode h g d (fun n => by simp [Names.inNode]) s

theorem renames_addStorage (h : ρ.Ok) (g d : String) (a : Study.StorageArgs) :
    Renames ρ.study id (Study.addStorage g d a) (Study.addStorage (ρ.net g) (ρ.node d) { a with name := ρ.elem a.name }) := by
  unfold Study.addStorage
  refine .bind (renames_getNode h g d) fun n => ?_
  refine renames_check (map_names (l := n.storages) (nm := Storage.name) (u := fun c => { c with name := ρ.elem c.name }) (fun _ => rfl) h a.name) ?_
  refine .bind (renames_create _) fun fi => ?_
  refine .bind (renames_create _) fun fo => ?_
  refine renames_check Iff.rfl ?_
  refine .bind (renames_create _) fun cap => ?_
  refine renames_check Iff.rfl ?_
  refine .bind (renames_create _) fun eff => ?_
  refine renames_check Iff.rfl ?_
  refine .bind (renames_create _) fun c => ?_
  refine .modify fun s => ?_
  exact renames_updNode h g d (fun n => by simp [Names.inNode]) s

theorem renames_addConverter (h : ρ.Ok) (x : String) : Renames ρ.study id (Study.addConverter x) (Study.addConverter (ρ.conv x)) := by
  unfold Study.addConverter
  refine .bind .get fun s => .ite (by simp only [Names.study]; rw [dict_keys h.conv]) ?_ (.pure _)
  refine .modify fun s => ?_
  simp only [Names.study]
  congr 1
  have := dict_set h.conv (g := ρ.converter) s.converters x ⟨x, [], "", "", .int0, .int0⟩
  rw [← this]
  simp only [Names.converter, Names.dict, List.map_nil, h.netEmpty, h.nodeEmpty]

theorem renames_addConverterSrc (h : ρ.Ok) (x g d : String) (r : Raw) :
    Renames ρ.study id (Study.addConverterSrc x g d r) (Study.addConverterSrc (ρ.conv x) (ρ.net g) (ρ.node d) r) := by
  unfold Study.addConverterSrc
  refine .bind .get fun s => .bind (f := ρ.converter) (.lift (dict_getE h.conv _ _)) fun c => ?_
  refine renames_check (by
    simp only [Names.converter]
    rw [show [ρ.net g, ρ.node d] = ρ.key [g, d] from rfl, dict_contains h.key]) ?_
  refine .bind (renames_create _) fun r => ?_
  refine .modify fun s => ?_
  refine renames_updConv h x (fun c => ?_) s
  simp only [Names.converter]
  congr 1
  exact dict_set h.key (g := id) c.srcRatios [g, d] r

theorem renames_setConverterDest (h : ρ.Ok) (x g d : String) (c m : Raw) :
    Renames ρ.study id (Study.setConverterDest x g d c m) (Study.setConverterDest (ρ.conv x) (ρ.net g) (ρ.node d) c m) := by
  unfold Study.setConverterDest
  refine .bind .get fun s => .bind (f := ρ.converter) (.lift (dict_getE h.conv _ _)) fun cv => ?_
  have e1 : ∀ y, ρ.net y = "" ↔ y = "" := fun y => by rw [← h.net.eq_iff (a := y), h.netEmpty]
  have e2 : ∀ y, ρ.node y = "" ↔ y = "" := fun y => by rw [← h.node.eq_iff (a := y), h.nodeEmpty]
  refine renames_check (by simp only [Names.converter, ne_eq, e1, e2]) ?_
  have key : ∀ {jp jp' : PUnit → PyM Study Unit}, Renames ρ.study id (jp ()) (jp' ()) → Renames ρ.study id
      (match Dict.get? s.networks g with
        | none => PyM.raise PyErr.valueError >>= jp
        | some net => if ¬ net.nodes.contains d then PyM.raise PyErr.valueError >>= jp else jp ())
      (match Dict.get? (ρ.study s).networks (ρ.net g) with
        | none => PyM.raise PyErr.valueError >>= jp'
        | some net => if ¬ net.nodes.contains (ρ.node d) then PyM.raise PyErr.valueError >>= jp' else jp' ()) := by
    intro jp jp' hj
    have : Dict.get? (ρ.study s).networks (ρ.net g) = (Dict.get? s.networks g).map ρ.network := dict_get? h.net _ _
    rw [this]
    cases Dict.get? s.networks g with
    | none => exact fun _ => rfl
    | some net => exact renames_check (by simp only [Names.network, dict_contains h.node]) hj
  refine key ?_
  refine .bind (.modify fun s => renames_updConv h x (by intro c; rfl) s) fun _ => ?_
  refine .bind (.modify fun s => renames_updConv h x (by intro c; rfl) s) fun _ => ?_
  refine .bind (renames_create _) fun c => ?_
  refine .bind (.modify fun s => renames_updConv h x (by intro c; rfl) s) fun _ => ?_
  refine .bind (renames_create _) fun m => ?_
  exact .modify fun s => renames_updConv h x (by intro c; rfl) s

/-! ### Calls of the fluent API -/

theorem renames_onStudy {α α' : Type} {f : α → α'} {m : PyM Study α} {m' : PyM Study α'} (hm : Renames ρ.study f m m') :
    Renames ρ.world f (World.onStudy m) (World.onStudy m') := by
  intro w
  have := hm w.study
  simp only [World.onStudy, Names.world]
  rw [this]

theorem renames_selOf (ref : ℕ) : Renames ρ.world ρ.sel (World.selOf ref) (World.selOf ref) := by
  intro w
  simp only [World.selOf, Names.world, List.getElem?_map]
  cases w.heap[ref]? <;> rfl

theorem renames_selNetwork (ref : ℕ) : Renames ρ.world ρ.net (World.selNetwork ref) (World.selNetwork ref) := by
  unfold World.selNetwork
  refine .bind (renames_selOf ref) fun s => ?_
  cases h : s.network with
  | none => simp only [Names.sel, h, Option.map_none]; exact .raise _
  | some n => simp only [Names.sel, h, Option.map_some]; exact .pure _

theorem renames_selNode (ref : ℕ) : Renames ρ.world ρ.node (World.selNode ref) (World.selNode ref) := by
  unfold World.selNode
  refine .bind (renames_selOf ref) fun s => ?_
  cases h : s.node with
  | none => simp only [Names.sel, h, Option.map_none]; exact .raise _
  | some n => simp only [Names.sel, h, Option.map_some]; exact .pure _

theorem renames_alloc (s : Sel) : Renames ρ.world id (World.alloc s) (World.alloc (ρ.sel s)) := by
  intro w
  simp [World.alloc, Names.world, Except.map]

theorem renames_network (h : ρ.Ok) (g : String) : Renames ρ.world id (World.network g) (World.network (ρ.net g)) := by
  unfold World.network
  exact .bind (renames_onStudy (renames_addNetwork h g)) fun _ => .bind (renames_alloc ⟨some g, none⟩) fun r => .pure _

theorem map_modify' {α β : Type} {f : α → β} {u : α → α} {u' : β → β} (hu : ∀ a, u' (f a) = f (u a)) (l : List α) (i : ℕ) :
    (l.map f).modify i u' = (l.modify i u).map f := by
  induction l generalizing i with
  | nil => cases i <;> rfl
  | cons a l ih =>
    cases i with
    | zero => simp [List.modify_zero_cons, hu]
    | succ i => simp [List.modify_succ_cons, ih]

theorem renames_node (h : ρ.Ok) (ref : ℕ) (d : String) : Renames ρ.world id (World.node ref d) (World.node ref (ρ.node d)) := by
  unfold World.node
  refine .bind (renames_selOf ref) fun _ => .bind (.modify fun w => ?_) fun _ => .bind (renames_selNetwork ref) fun g =>
    .bind (renames_onStudy (renames_addNode h g d)) fun _ => .pure _
  simp only [Names.world]
  congr 1
  rw [map_modify' (u := fun s : Sel => { s with node := some d }) (u' := fun s : Sel => { s with node := some (ρ.node d) }) fun _ => rfl]

theorem renames_link (h : ρ.Ok) (ref : ℕ) (a b : String) (c q : Raw) :
    Renames ρ.world id (World.link ref a b c q) (World.link ref (ρ.node a) (ρ.node b) c q) := by
  unfold World.link
  exact .bind (renames_selNetwork ref) fun g => .bind (renames_onStudy (renames_addLink h g a b c q)) fun _ => .pure _

theorem renames_converter (h : ρ.Ok) (x g d : String) (m c : Raw) :
    Renames ρ.world id (World.converter x g d m c) (World.converter (ρ.conv x) (ρ.net g) (ρ.node d) m c) := by
  unfold World.converter
  exact .bind (renames_onStudy (renames_addConverter h x)) fun _ =>
    .bind (renames_onStudy (renames_setConverterDest h x g d c m)) fun _ => .bind (renames_alloc ⟨none, none⟩) fun _ => .pure _

theorem renames_step (h : ρ.Ok) (c : Call) : Renames ρ.world id (World.step c) (World.step (ρ.call c)) := by
  cases c with
  | studyNetwork name => exact renames_network h name
  | studyAddNetwork name => exact .bind (renames_onStudy (renames_addNetwork h name)) fun _ => .pure _
  | studyAddNode g d => exact .bind (renames_onStudy (renames_addNode h g d)) fun _ => .pure _
  | studyAddLink g a b c q => exact .bind (renames_onStudy (renames_addLink h g a b c q)) fun _ => .pure _
  | netNode r d => exact renames_node h r d
  | netLink r a b c q => exact renames_link h r a b c q
  | netNetwork r g => exact renames_network h g
  | netConverter r x g d m c => exact renames_converter h x g d m c
  | nodeConsumption r x c q =>
    refine .bind (renames_selNetwork r) fun g => .bind (renames_selNode r) fun d => ?_
    exact .bind (renames_onStudy (renames_addConsumption h g d x c q)) fun _ => .pure _
  | nodeProduction r x c q =>
    refine .bind (renames_selNetwork r) fun g => .bind (renames_selNode r) fun d => ?_
    exact .bind (renames_onStudy (renames_addProduction h g d x c q)) fun _ => .pure _
  | nodeStorage r a =>
    refine .bind (renames_selNetwork r) fun g => .bind (renames_selNode r) fun d => ?_
    exact .bind (renames_onStudy (renames_addStorage h g d a)) fun _ => .pure _
  | nodeNode r d => exact renames_node h r d
  | nodeLink r a b c q => exact renames_link h r a b c q
  | nodeNetwork r g => exact renames_network h g
  | nodeConverter r x g d m c => exact renames_converter h x g d m c
  | nodeToConverter r x q =>
    refine .bind (renames_onStudy (renames_addConverter h x)) fun _ => .bind (renames_selNetwork r) fun g => .bind (renames_selNode r) fun d => ?_
    exact .bind (renames_onStudy (renames_addConverterSrc h x g d q)) fun _ => .pure _

theorem renames_run (h : ρ.Ok) (cs : List Call) (w : World) : (ρ.world w).run (cs.map ρ.call) = ρ.world (w.run cs) := by
  induction cs generalizing w with
  | nil => rfl
  | cons c cs ih =>
    have e : (ρ.world w).after (ρ.call c) = ρ.world (w.after c) := by
      unfold World.after
      rw [renames_step h c w]
    simp only [World.run, List.map_cons, List.foldl_cons] at ih ⊢
    rw [e]
    exact ih _

theorem renames_start (h n : ℕ) : ρ.world (World.start h n) = World.start h n := rfl

theorem rawCall_rename {c : Call} (h : RawCall c) : RawCall (ρ.call c) := by
  cases c <;> exact h

theorem built_rename (h : ρ.Ok) {s : Study} (hs : Built s) : Built (ρ.study s) := by
  obtain ⟨hz, n, cs, hc, rfl⟩ := hs
  refine ⟨hz, n, cs.map ρ.call, ?_, ?_⟩
  · intro c hc'
    obtain ⟨c, hc'', rfl⟩ := List.mem_map.mp hc'
    exact rawCall_rename (hc c hc'')
  · rw [← renames_start, renames_run h]
    rfl

/-! ### Dispatches -/

variable {s : Study} {D : Dispatch} {k : ℕ}

theorem sumL_dict {K K' V V' : Type} (f : K → K') (g : V → V') (d : Dict K V) (F : K' × V' → ℚ) :
    sumL (Names.dict f g d) F = sumL d fun p => F (f p.1, g p.2) := sumL_map _ _ _

theorem sumI_map' {α β : Type} (u : α → β) (l : List α) (F : β → ℕ → ℚ) : sumI (l.map u) F = sumI l fun a i => F (u a) i := by
  rw [sumI_eq, sumI_eq, List.zipIdx_map, sumL_map]
  rfl

theorem hasNode_rename {g d : String} {n : InputNode} (h : HasNode s g d n) :
    HasNode (ρ.study s) (ρ.net g) (ρ.node d) (ρ.inNode n) := by
  obtain ⟨net, hg, hd⟩ := h
  exact ⟨ρ.network net, List.mem_map.mpr ⟨_, hg, rfl⟩, List.mem_map.mpr ⟨_, hd, rfl⟩⟩

theorem hasNode_of_rename {g' d' : String} {n' : InputNode} (h : HasNode (ρ.study s) g' d' n') :
    ∃ g d n, HasNode s g d n ∧ g' = ρ.net g ∧ d' = ρ.node d ∧ n' = ρ.inNode n := by
  obtain ⟨net', hg, hd⟩ := h
  obtain ⟨⟨g, net⟩, hg1, e⟩ := List.mem_map.mp hg
  cases e
  obtain ⟨⟨d, n⟩, hd1, e⟩ := List.mem_map.mp hd
  cases e
  exact ⟨g, d, n, ⟨net, hg1, hd1⟩, rfl, rfl, rfl⟩

theorem imports_rename (h : ρ.Ok) (g d : String) (t : ℕ) :
    imports (ρ.study s) D (ρ.net g) (ρ.node d) t = imports s (ρ.dispatch D) g d t := by
  unfold imports
  rw [sumL_filter, sumL_filter]
  simp only [Names.study]
  rw [sumL_dict]
  refine sumL_congr fun p _ => ?_
  simp only [h.net.eq_iff, Names.network]
  rw [sumL_dict]
  congr 1
  refine sumL_congr fun q _ => ?_
  simp only [Names.inNode]
  rw [sumI_map']
  simp only [h.node.eq_iff]
  rfl

theorem from_rename (h : ρ.Ok) (g d : String) (t : ℕ) :
    fromConverters (ρ.study s) D (ρ.net g) (ρ.node d) t = fromConverters s (ρ.dispatch D) g d t := by
  unfold fromConverters
  simp only [Names.study]
  rw [sumL_dict]
  simp only [Names.converter, h.net.eq_iff, h.node.eq_iff]
  rfl

theorem to_rename (h : ρ.Ok) (g d : String) (t : ℕ) :
    toConverters (ρ.study s) D (ρ.net g) (ρ.node d) t = toConverters s (ρ.dispatch D) g d t := by
  unfold toConverters
  simp only [Names.study]
  rw [sumL_dict]
  refine sumL_congr fun p _ => ?_
  simp only [Names.converter]
  rw [sumL_dict]
  simp only [show [ρ.net g, ρ.node d] = ρ.key [g, d] from rfl, h.key.eq_iff]
  rfl

theorem key_pair {l : List String} {g' d' : String} (e : ρ.key l = [g', d']) : ∃ g d, l = [g, d] ∧ g' = ρ.net g ∧ d' = ρ.node d := by
  unfold Names.key at e
  split at e
  · rename_i g d
    simp only [List.cons.injEq, and_true] at e
    exact ⟨g, d, rfl, e.1.symm, e.2.symm⟩
  · rename_i hl
    exact absurd e (hl _ _)

theorem incoming_rename (h : ρ.Ok) : ∀ g d n t, incoming (ρ.study s) D (ρ.net g) (ρ.node d) (ρ.inNode n) t = incoming s (ρ.dispatch D) g d n t := by
  intro g d n t
  unfold incoming
  rw [imports_rename h, from_rename h]
  simp only [Names.inNode]
  rw [sumI_map', sumI_map']
  rfl

theorem outgoing_rename (h : ρ.Ok) : ∀ g d n t, outgoing (ρ.study s) k D (ρ.net g) (ρ.node d) (ρ.inNode n) t = outgoing s k (ρ.dispatch D) g d n t := by
  intro g d n t
  unfold outgoing
  rw [to_rename h]
  simp only [Names.inNode]
  rw [sumI_map', sumI_map', sumI_map']
  rfl

theorem selfFlow_rename (h : ρ.Ok) : ∀ g d n t, selfFlow D (ρ.net g) (ρ.node d) (ρ.inNode n) t = selfFlow (ρ.dispatch D) g d n t := by
  intro g d n t
  unfold selfFlow
  simp only [Names.inNode]
  rw [sumI_map']
  simp only [h.node.eq_iff]
  rfl

theorem bounds_rename : Bounds (ρ.study s) k D ↔ Bounds s k (ρ.dispatch D) := by
  have hget : ∀ {α : Type} (l : List α) (u : α → α) (i : ℕ) (a : α), l[i]? = some a → (l.map u)[i]? = some (u a) := by
    intro α l u i a e
    rw [List.getElem?_map, e]
    rfl
  have hget' : ∀ {α : Type} (l : List α) (u : α → α) (i : ℕ) (b : α), (l.map u)[i]? = some b → ∃ a, l[i]? = some a ∧ b = u a := by
    intro α l u i b e
    rw [List.getElem?_map] at e
    obtain ⟨a, ha, e⟩ := Option.map_eq_some_iff.mp e
    exact ⟨a, ha, e.symm⟩
  constructor
  · intro hf
    refine ⟨?_, ?_, ?_, ?_, ?_, ?_⟩
    · intro g d n hn i c hc t ht
      exact hf.consumptions _ _ _ (hasNode_rename hn) i _ (hget _ _ i c hc) t ht
    · intro g d n hn i c hc t ht
      exact hf.productions _ _ _ (hasNode_rename hn) i _ (hget _ _ i c hc) t ht
    · intro g d n hn i c hc t ht
      exact hf.storages _ _ _ (hasNode_rename hn) i _ (hget _ _ i c hc) t ht
    · intro g d n hn i c hc t ht
      exact hf.links _ _ _ (hasNode_rename hn) i _ (hget _ _ i c hc) t ht
    · intro p hp g d r hr t ht
      exact hf.convSrc _ (List.mem_map.mpr ⟨p, hp, rfl⟩) (ρ.net g) (ρ.node d) r (List.mem_map.mpr ⟨_, hr, rfl⟩) t ht
    · intro p hp t ht
      exact hf.convDest _ (List.mem_map.mpr ⟨p, hp, rfl⟩) t ht
  · intro hf
    refine ⟨?_, ?_, ?_, ?_, ?_, ?_⟩
    · intro g' d' n' hn' i c' hc' t ht
      obtain ⟨g, d, n, hn, rfl, rfl, rfl⟩ := hasNode_of_rename hn'
      obtain ⟨c, hc, rfl⟩ := hget' _ _ i c' hc'
      exact hf.consumptions g d n hn i c hc t ht
    · intro g' d' n' hn' i c' hc' t ht
      obtain ⟨g, d, n, hn, rfl, rfl, rfl⟩ := hasNode_of_rename hn'
      obtain ⟨c, hc, rfl⟩ := hget' _ _ i c' hc'
      exact hf.productions g d n hn i c hc t ht
    · intro g' d' n' hn' i c' hc' t ht
      obtain ⟨g, d, n, hn, rfl, rfl, rfl⟩ := hasNode_of_rename hn'
      obtain ⟨c, hc, rfl⟩ := hget' _ _ i c' hc'
      exact hf.storages g d n hn i c hc t ht
    · intro g' d' n' hn' i c' hc' t ht
      obtain ⟨g, d, n, hn, rfl, rfl, rfl⟩ := hasNode_of_rename hn'
      obtain ⟨c, hc, rfl⟩ := hget' _ _ i c' hc'
      exact hf.links g d n hn i c hc t ht
    · intro p' hp' g' d' r hr t ht
      obtain ⟨p, hp, rfl⟩ := List.mem_map.mp hp'
      obtain ⟨⟨l, r'⟩, hr1, e⟩ := List.mem_map.mp hr
      obtain ⟨e1, e2⟩ := Prod.mk.inj e
      obtain ⟨g, d, rfl, rfl, rfl⟩ := key_pair e1
      simp only [id] at e2
      subst e2
      exact hf.convSrc p hp g d r' hr1 t ht
    · intro p' hp' t ht
      obtain ⟨p, hp, rfl⟩ := List.mem_map.mp hp'
      exact hf.convDest p hp t ht

theorem ratios_rename : RatiosOk (ρ.study s) k D ↔ RatiosOk s k (ρ.dispatch D) := by
  refine ⟨fun hf => ?_, fun hf => ?_⟩
  · intro p hp g d r hr t ht
    exact hf _ (List.mem_map.mpr ⟨p, hp, rfl⟩) (ρ.net g) (ρ.node d) r (List.mem_map.mpr ⟨_, hr, rfl⟩) t ht
  · intro p' hp' g' d' r hr t ht
    obtain ⟨p, hp, rfl⟩ := List.mem_map.mp hp'
    obtain ⟨⟨l, r'⟩, hr1, e⟩ := List.mem_map.mp hr
    obtain ⟨e1, e2⟩ := Prod.mk.inj e
    obtain ⟨g, d, rfl, rfl, rfl⟩ := key_pair e1
    simp only [id] at e2
    subst e2
    exact hf p hp g d r' hr1 t ht

/-- a dispatch of the study under other names is a dispatch of the study -/
theorem codeFeasible_rename (h : ρ.Ok) : CodeFeasible (ρ.study s) k D ↔ CodeFeasible s k (ρ.dispatch D) := by
  constructor
  · intro hf
    refine ⟨bounds_rename.mp hf.bounds, ?_, ?_, ratios_rename.mp hf.ratios⟩
    · intro g d n hn t ht
      have := hf.balance _ _ _ (hasNode_rename hn) t ht
      rwa [incoming_rename h, outgoing_rename h, selfFlow_rename h] at this
    · intro g d n hn c hc t ht
      exact hf.storages _ _ _ (hasNode_rename hn) { c with name := ρ.elem c.name } (by simp [Names.inNode, hc]) t ht
  · intro hf
    refine ⟨bounds_rename.mpr hf.bounds, ?_, ?_, ratios_rename.mpr hf.ratios⟩
    · intro g' d' n' hn' t ht
      obtain ⟨g, d, n, hn, rfl, rfl, rfl⟩ := hasNode_of_rename hn'
      rw [incoming_rename h, outgoing_rename h, selfFlow_rename h]
      exact hf.balance g d n hn t ht
    · intro g' d' n' hn' c' hc' t ht
      obtain ⟨g, d, n, hn, rfl, rfl, rfl⟩ := hasNode_of_rename hn'
      simp only [Names.inNode, List.head?_map] at hc'
      obtain ⟨c, hc, rfl⟩ := Option.map_eq_some_iff.mp hc'
      exact hf.storages g d n hn c hc t ht

theorem feasible_rename (h : ρ.Ok) : Spec.Feasible (ρ.study s) k D ↔ Spec.Feasible s k (ρ.dispatch D) := by
  constructor
  · intro hf
    refine ⟨bounds_rename.mp hf.bounds, ?_, ?_, ratios_rename.mp hf.ratios⟩
    · intro g d n hn t ht
      have := hf.balanced _ _ _ (hasNode_rename hn) t ht
      rwa [incoming_rename h, outgoing_rename h] at this
    · intro g d n hn i c hc t ht
      exact hf.storages _ _ _ (hasNode_rename hn) i { c with name := ρ.elem c.name } (by simp [Names.inNode, hc]) t ht
  · intro hf
    refine ⟨bounds_rename.mpr hf.bounds, ?_, ?_, ratios_rename.mpr hf.ratios⟩
    · intro g' d' n' hn' t ht
      obtain ⟨g, d, n, hn, rfl, rfl, rfl⟩ := hasNode_of_rename hn'
      rw [incoming_rename h, outgoing_rename h]
      exact hf.balanced g d n hn t ht
    · intro g' d' n' hn' i c' hc' t ht
      obtain ⟨g, d, n, hn, rfl, rfl, rfl⟩ := hasNode_of_rename hn'
      simp only [Names.inNode, List.getElem?_map] at hc'
      obtain ⟨c, hc, rfl⟩ := Option.map_eq_some_iff.mp hc'
      exact hf.storages g d n hn i c hc t ht

theorem cost_rename : cost (ρ.study s) k D = cost s k (ρ.dispatch D) := by
  unfold cost
  refine sumL_congr fun t _ => ?_
  simp only [Names.study]
  rw [sumL_dict, sumL_dict]
  refine congrArg₂ (· + ·) (sumL_congr fun p _ => ?_) rfl
  simp only [Names.network]
  rw [sumL_dict]
  refine sumL_congr fun q _ => ?_
  simp only [nodeCost, Names.inNode]
  rw [sumI_map', sumI_map', sumI_map', sumI_map']
  rfl

/-- every dispatch can be written under other names -/
theorem dispatch_rename (h : ρ.Ok) (D : Dispatch) : ∃ D', ρ.dispatch D' = D := by
  have e1 := Function.leftInverse_invFun h.net
  have e2 := Function.leftInverse_invFun h.node
  have e3 := Function.leftInverse_invFun h.conv
  refine ⟨⟨fun g d => D.lol (Function.invFun ρ.net g) (Function.invFun ρ.node d),
    fun g d => D.prod (Function.invFun ρ.net g) (Function.invFun ρ.node d),
    fun g d => D.cap (Function.invFun ρ.net g) (Function.invFun ρ.node d),
    fun g d => D.fin (Function.invFun ρ.net g) (Function.invFun ρ.node d),
    fun g d => D.fout (Function.invFun ρ.net g) (Function.invFun ρ.node d),
    fun g d => D.link (Function.invFun ρ.net g) (Function.invFun ρ.node d),
    fun c p => D.convSrc (Function.invFun ρ.conv c) (Function.invFun ρ.net p.1, Function.invFun ρ.node p.2),
    fun c => D.convDest (Function.invFun ρ.conv c)⟩, ?_⟩
  cases D
  simp only [Names.dispatch, e1 _, e2 _, e3 _]

end Hadar
