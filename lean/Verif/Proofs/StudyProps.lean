import Verif.Proofs.Fluent
import Verif.Props.Numeric

/-! # Lemmas for the properties of the builder -/

set_option linter.unusedSimpArgs false

namespace Hadar

open Spec

theorem Dict.modify_split {K V : Type} [DecidableEq K] {d : Dict K V} {k : K} {v : V} (f : V → V)
    (h : d.get? k = some v) :
    ∃ pre post, d = pre ++ (k, v) :: post ∧ d.modify k f = pre ++ (k, f v) :: post := by
  induction d with
  | nil => simp [Dict.get?] at h
  | cons p d ih =>
    obtain ⟨k', v'⟩ := p
    by_cases hk : k' = k
    · subst hk
      simp [Dict.get?] at h; subst h
      exact ⟨[], d, rfl, by simp [Dict.modify]⟩
    · simp [Dict.get?, hk] at h
      obtain ⟨pre, post, h1, h2⟩ := ih h
      exact ⟨(k', v') :: pre, post, by simp [h1], by simp [Dict.modify, hk, h2]⟩

theorem onlyNodeChanged_updNode {s : Study} {g d : String} {net : InputNetwork} {n : InputNode}
    (f : InputNode → InputNode) (h1 : s.networks.get? g = some net)
    (h2 : net.nodes.get? d = some n) : OnlyNodeChanged s (s.updNode g d f) g d n (f n) := by
  obtain ⟨npre, npost, e1, e2⟩ := Dict.modify_split f h2
  obtain ⟨pre, post, e3, e4⟩ := Dict.modify_split (fun net => ⟨net.nodes.modify d f⟩) h1
  refine ⟨pre, post, npre, npost, ?_, ?_⟩
  · rw [e3, ← e1]
  · simp only [Study.updNode, Study.updNet, e4, e2]

theorem onlyConverterChanged_updConv {s : Study} {name : String} {c : Converter}
    (f : Converter → Converter) (h1 : s.converters.get? name = some c) :
    OnlyConverterChanged s (s.updConv name f) name c (f c) := by
  obtain ⟨pre, post, e1, e2⟩ := Dict.modify_split f h1
  exact ⟨pre, post, e1, by simp only [Study.updConv, e2]⟩

theorem stores_of_create {h n : ℕ} {r : Raw} {v : NumVal} (hr : Props.IsRaw r)
    (hc : (Factory.mk h n).create r = .ok v) : Stores h n r v :=
  fun i j hi hj => Props.C01_broadcast h n r v hr hc i j hi hj

theorem list_all_lt {l : List ℚ} {P : ℚ → Bool} : l.all P = true ↔ ∀ (i : ℕ) (q : ℚ), l[i]? = some q → P q = true := by
  rw [List.all_eq_true]
  constructor
  · intro h i q hq; exact h q (List.mem_of_getElem? hq)
  · intro h q hq
    obtain ⟨i, hi⟩ := List.mem_iff_getElem?.mp hq
    exact h i q hi

/-- `np.all` of a predicate over the stored value -/
def NumVal.allV (v : NumVal) (P : ℚ → Bool) : Bool :=
  match v.kind with
  | .scalar q => P q
  | .matrix a | .row a | .column a => a.data.all P

/-- `np.all` over the stored array is "everywhere", for non-empty studies -/
theorem NumVal.Sized.all_iff {h n : ℕ} {v : NumVal} (hv : v.Sized h n) (hh : 0 < h) (hn : 0 < n)
    (P : ℚ → Bool) :
    v.allV P = true ↔
    ∀ i j : ℕ, i < n → j < h → ∀ q, v.at? h i j = some q → P q = true := by
  obtain ⟨_, _, hk⟩ := hv
  unfold NumVal.at? NumVal.allV
  cases hkind : v.kind with
  | scalar q =>
    simp only
    constructor
    · intro hp i j _ _ q' hq; cases hq; exact hp
    · intro hp; exact hp 0 0 hn hh q rfl
  | row a =>
    rw [hkind] at hk
    simp only at hk ⊢
    rw [list_all_lt]
    constructor
    · intro hp i j _ _ q hq; exact hp j q hq
    · intro hp j q hq
      have : j < h := by
        have := (List.getElem?_eq_some_iff.mp hq).1
        rwa [NdArray.length1 hk] at this
      exact hp 0 j hn this q hq
  | column a =>
    rw [hkind] at hk
    simp only at hk ⊢
    rw [list_all_lt]
    constructor
    · intro hp i j _ _ q hq; exact hp i q hq
    · intro hp i q hq
      have : i < n := by
        have := (List.getElem?_eq_some_iff.mp hq).1
        rwa [NdArray.length2 hk, Nat.mul_one] at this
      exact hp i 0 this hh q hq
  | matrix a =>
    rw [hkind] at hk
    simp only at hk ⊢
    rw [list_all_lt]
    constructor
    · intro hp i j _ _ q hq; exact hp _ q hq
    · intro hp k q hq
      have hlt : k < n * h := by
        have := (List.getElem?_eq_some_iff.mp hq).1
        rwa [NdArray.length2 hk] at this
      have hi : k / h < n := Nat.div_lt_of_lt_mul (by rwa [Nat.mul_comm] at hlt)
      have hj : k % h < h := Nat.mod_lt _ hh
      refine hp (k / h) (k % h) hi hj q ?_
      rw [Nat.mul_comm, Nat.div_add_mod]; exact hq

theorem Factory.all_iff_everywhere {h n : ℕ} {r : Raw} {v : NumVal} (hr : Props.IsRaw r)
    (hc : (Factory.mk h n).create r = .ok v) (hh : 0 < h) (hn : 0 < n) (P : ℚ → Bool) :
    v.allV P = true ↔
    Everywhere h n r (fun q => P q = true) := by
  have hv : v.Sized h n := Factory.create_sized hr hc
  rw [hv.all_iff hh hn P]
  constructor
  · intro hp i j hi hj
    obtain ⟨q, h1, h2⟩ := Props.C01_broadcast h n r v hr hc i j hi hj
    obtain ⟨q', hq'⟩ := hv.at?_some hi hj
    have := hv.getitem hi hj hq'
    rw [h1] at this; cases this
    exact ⟨q, h2, hp i j hi hj q hq'⟩
  · intro hp i j hi hj q hq
    obtain ⟨q', h1, h2⟩ := hp i j hi hj
    obtain ⟨q'', h3, h4⟩ := Props.C01_broadcast h n r v hr hc i j hi hj
    rw [hv.getitem hi hj hq] at h3; cases h3
    rw [Props.C01_broadcast_unique h n r i j hj _ _ h4 h1]; exact h2

theorem Factory.lt_iff {h n : ℕ} {r : Raw} {v : NumVal} (hr : Props.IsRaw r)
    (hc : (Factory.mk h n).create r = .ok v) (hh : 0 < h) (hn : 0 < n) (x : ℚ) :
    v.lt x = true ↔ Everywhere h n r (· < x) := by
  have := Factory.all_iff_everywhere hr hc hh hn (fun q => decide (q < x))
  rw [show v.lt x = v.allV (fun q => decide (q < x)) by
    unfold NumVal.lt NumVal.allV; cases v.kind <;> rfl, this]
  simp

theorem Factory.gt_iff {h n : ℕ} {r : Raw} {v : NumVal} (hr : Props.IsRaw r)
    (hc : (Factory.mk h n).create r = .ok v) (hh : 0 < h) (hn : 0 < n) (x : ℚ) :
    v.gt x = true ↔ Everywhere h n r (x < ·) := by
  have := Factory.all_iff_everywhere hr hc hh hn (fun q => decide (x < q))
  rw [show v.gt x = v.allV (fun q => decide (x < q)) by
    unfold NumVal.gt NumVal.allV; cases v.kind <;> rfl, this]
  simp

/-! ### the builder methods succeed when their conditions hold -/

namespace Study

theorem addConsumption_ok {g d name : String} {cost q : Raw} {s : Study} {net n qv cv}
    (h1 : s.networks.get? g = some net) (h2 : net.nodes.get? d = some n)
    (h3 : name ∉ n.consumptions.map Consumption.name) (h4 : s.factory.create q = .ok qv) :
    (qv.lt 0 = true → addConsumption g d name cost q s = (.error .valueError, s)) ∧
    (qv.lt 0 = false → s.factory.create cost = .ok cv → (addConsumption g d name cost q s).1 = .ok ()) := by
  simp only [addConsumption, getNode, create, Dict.getE, PyM.bind_run, PyM.get_run, PyM.lift_run]
  constructor
  · intro h5; simp [-List.mem_map, h1, h2, h3, h4, h5]
  · intro h5 h6; simp [-List.mem_map, h1, h2, h3, h4, h5, h6]

theorem addProduction_ok {g d name : String} {cost q : Raw} {s : Study} {net n qv cv}
    (h1 : s.networks.get? g = some net) (h2 : net.nodes.get? d = some n)
    (h3 : name ∉ n.productions.map Production.name) (h4 : s.factory.create q = .ok qv) :
    (qv.lt 0 = true → addProduction g d name cost q s = (.error .valueError, s)) ∧
    (qv.lt 0 = false → s.factory.create cost = .ok cv → (addProduction g d name cost q s).1 = .ok ()) := by
  simp only [addProduction, getNode, create, Dict.getE, PyM.bind_run, PyM.get_run, PyM.lift_run]
  constructor
  · intro h5; simp [-List.mem_map, h1, h2, h3, h4, h5]
  · intro h5 h6; simp [-List.mem_map, h1, h2, h3, h4, h5, h6]

theorem addLink_ok {g src dest : String} {cost q : Raw} {s : Study} {net n qv cv}
    (h1 : s.networks.get? g = some net) (h2 : net.nodes.get? src = some n)
    (hd : dest ∈ net.nodes.keys)
    (h3 : dest ∉ n.links.map Link.dest) (h4 : s.factory.create q = .ok qv) :
    (qv.lt 0 = true → addLink g src dest cost q s = (.error .valueError, s)) ∧
    (qv.lt 0 = false → s.factory.create cost = .ok cv → (addLink g src dest cost q s).1 = .ok ()) := by
  have hc : net.nodes.contains src = true := by simp [Dict.contains, h2]
  have hd' := (Dict.contains_iff _ _).mpr hd
  simp only [addLink, getNode, create, Dict.getE, PyM.bind_run, PyM.get_run, PyM.lift_run]
  constructor
  · intro h5; simp [-List.mem_map, h1, h2, h3, h4, h5, hc, hd']
  · intro h5 h6; simp [-List.mem_map, h1, h2, h3, h4, h5, h6, hc, hd']

theorem addStorage_ok {g d : String} {a : StorageArgs} {s : Study} {net n fi fo cap ev cv}
    (h1 : s.networks.get? g = some net) (h2 : net.nodes.get? d = some n)
    (h3 : a.name ∉ n.storages.map Storage.name) (h4 : s.factory.create a.flowIn = .ok fi)
    (h5 : s.factory.create a.flowOut = .ok fo) (h6 : s.factory.create a.capacity = .ok cap)
    (h7 : s.factory.create a.eff = .ok ev) :
    (fi.lt 0 = true ∨ fo.lt 0 = true ∨ cap.lt 0 = true ∨ a.initCapacity < 0 ∨ ev.lt 0 = true ∨
        ev.gt 1 = true → addStorage g d a s = (.error .valueError, s)) ∧
    (fi.lt 0 = false → fo.lt 0 = false → cap.lt 0 = false → 0 ≤ a.initCapacity → ev.lt 0 = false →
        ev.gt 1 = false → s.factory.create a.cost = .ok cv → (addStorage g d a s).1 = .ok ()) := by
  simp only [addStorage, getNode, create, Dict.getE, PyM.bind_run, PyM.get_run, PyM.lift_run]
  constructor
  · intro h
    cases e1 : fi.lt 0
    · cases e2 : fo.lt 0
      · cases e3 : cap.lt 0
        · by_cases e4 : a.initCapacity < 0
          · simp [-List.mem_map, h1, h2, h3, h4, h5, h6, h7, e1, e2, e3, e4]
          · cases e5 : ev.lt 0
            · simp [e1, e2, e3, e4, e5] at h
              simp [-List.mem_map, h1, h2, h3, h4, h5, h6, h7, e1, e2, e3, e4, e5, h]
            · simp [-List.mem_map, h1, h2, h3, h4, h5, h6, h7, e1, e2, e3, e4, e5]
        · simp [-List.mem_map, h1, h2, h3, h4, h5, h6, h7, e1, e2, e3]
      · simp [-List.mem_map, h1, h2, h3, h4, h5, h6, h7, e1, e2]
    · simp [-List.mem_map, h1, h2, h3, h4, h5, h6, h7, e1]
  · intro e1 e2 e3 e4 e5 e6 e7
    simp [-List.mem_map, h1, h2, h3, h4, h5, h6, h7, e1, e2, e3, not_lt.mpr e4, e5, e6, e7]

end Study

/-! ### selectors are kept -/

namespace World

/-- calls that move the selector `ref` -/
def movesRef (ref : ℕ) : Call → Prop
  | .netNode r _ | .nodeNode r _ => r = ref
  | _ => False

theorem heap_after {w : World} {ref : ℕ} {sel : Sel} (hs : w.heap[ref]? = some sel) (c : Call)
    (hc : ¬ movesRef ref c) : (w.after c).heap[ref]? = some sel := by
  have happ : ∀ x, (w.heap ++ [x])[ref]? = some sel := by
    intro x
    rw [List.getElem?_append_left (List.getElem?_eq_some_iff.mp hs).1]; exact hs
  have hlink : ∀ r src dest cost q, (link r src dest cost q w).2.heap = w.heap := by
    intro r src dest cost q
    rcases link_run r src dest cost q w with ⟨e, h, _⟩ | ⟨g, d, _, h⟩ <;> rw [h]
  have hconv : ∀ name net nd mx cost, (converter name net nd mx cost w).2.heap[ref]? = some sel := by
    intro name net nd mx cost
    rcases converter_run name net nd mx cost w with ⟨e, _, h⟩ | ⟨_, h⟩
    · rw [h]; exact hs
    · rw [h]; exact happ _
  have hnode : ∀ r name, r ≠ ref → (node r name w).2.heap[ref]? = some sel := by
    intro r name hr
    have : (setNode w.heap r name)[ref]? = some sel := by
      simp [setNode, List.getElem?_modify, hr, hs]
    rcases node_run r name w with ⟨_, h⟩ | ⟨d, _, h⟩ | ⟨g, d, _, h⟩ <;> rw [h] <;> assumption
  have hwith : ∀ r (f : String → String → PyM Study Unit), ((do
        let net ← selNetwork r
        let nd ← selNode r
        onStudy (f net nd)
        pure (.node r) : PyM World Handle) w).2.heap[ref]? = some sel := by
    intro r f
    rcases withSel_run r f w with ⟨e, h, _⟩ | ⟨g, d, _, h⟩ <;> rw [h] <;> exact hs
  unfold after
  cases c with
  | studyNetwork name => rw [show step (.studyNetwork name) w = _ from network_run name w]; exact happ _
  | studyAddNetwork name => simpa [step, onStudy, Study.addNetwork_run] using hs
  | studyAddNode g d =>
    simp only [step, onStudy, PyM.bind_run]
    cases Study.addNode g d w.study with
    | mk r s => cases r <;> simpa using hs
  | studyAddLink g src dest cost q =>
    simp only [step, onStudy, PyM.bind_run]
    cases Study.addLink g src dest cost q w.study with
    | mk r s => cases r <;> simpa using hs
  | netNode r name => exact hnode r name hc
  | netLink r src dest cost q => exact (congrArg (·[ref]?) (hlink r src dest cost q)).trans hs
  | netNetwork r name => rw [show step (.netNetwork r name) w = _ from network_run name w]; exact happ _
  | netConverter r name net nd mx cost => exact hconv _ _ _ _ _
  | nodeConsumption r name cost q => exact hwith r _
  | nodeProduction r name cost q => exact hwith r _
  | nodeStorage r a => exact hwith r _
  | nodeNode r name => exact hnode r name hc
  | nodeLink r src dest cost q => exact (congrArg (·[ref]?) (hlink r src dest cost q)).trans hs
  | nodeNetwork r name => rw [show step (.nodeNetwork r name) w = _ from network_run name w]; exact happ _
  | nodeConverter r name net nd mx cost => exact hconv _ _ _ _ _
  | nodeToConverter r name ratio =>
    rcases toConverter_run r name ratio w with ⟨e, h⟩ | ⟨g, d, _, h⟩ <;> rw [h] <;> exact hs

theorem heap_run {w : World} {ref : ℕ} {sel : Sel} (hs : w.heap[ref]? = some sel) (cs : List Call)
    (hc : ∀ c ∈ cs, ¬ movesRef ref c) : (w.run cs).heap[ref]? = some sel := by
  induction cs generalizing w with
  | nil => exact hs
  | cons c cs ih =>
    exact ih (heap_after hs c (hc c (by simp))) (fun c' h' => hc c' (List.mem_cons_of_mem _ h'))

/-! ### converters with a destination are kept -/

/-- a converter with a (non-empty) destination keeps it, with its cost and its maximum -/
def KeepsDest (s s' : Study) : Prop :=
  ∀ name c, s.converters.get? name = some c → c.destNetwork ≠ "" → c.destNode ≠ "" →
    ∃ c', s'.converters.get? name = some c' ∧ c'.destNetwork = c.destNetwork ∧
      c'.destNode = c.destNode ∧ c'.cost = c.cost ∧ c'.max = c.max

theorem KeepsDest.of_eq {s s' : Study} (h : s'.converters = s.converters) : KeepsDest s s' := by
  intro name c hc _ _; exact ⟨c, by rw [h]; exact hc, rfl, rfl, rfl, rfl⟩

theorem KeepsDest.trans {s s' s'' : Study} (h : KeepsDest s s') (h' : KeepsDest s' s'') :
    KeepsDest s s'' := by
  intro name c hc h1 h2
  obtain ⟨c', a1, a2, a3, a4, a5⟩ := h name c hc h1 h2
  obtain ⟨c'', b1, b2, b3, b4, b5⟩ := h' name c' a1 (by rwa [a2]) (by rwa [a3])
  exact ⟨c'', b1, b2.trans a2, b3.trans a3, b4.trans a4, b5.trans a5⟩

theorem keeps_updConv {s : Study} {name : String} {f : Converter → Converter}
    (h : ∀ c, s.converters.get? name = some c → (c.destNetwork = "" ∨ c.destNode = "") ∨
      ((f c).destNetwork = c.destNetwork ∧ (f c).destNode = c.destNode ∧ (f c).cost = c.cost ∧
        (f c).max = c.max)) : KeepsDest s (s.updConv name f) := by
  intro name' c hc h1 h2
  simp only [Study.updConv, Dict.get?_modify]
  by_cases hn : name = name'
  · subst hn
    rcases h c hc with h' | h'
    · tauto
    · exact ⟨f c, by simp [hc], h'⟩
  · exact ⟨c, by simp [Ne.symm hn, hn, hc], rfl, rfl, rfl, rfl⟩

theorem keeps_addConverter (name : String) (s : Study) :
    KeepsDest s (Study.addConverter name s).2 := by
  rw [Study.addConverter_run]
  by_cases h : name ∈ s.converters.keys
  · simp only [h, if_true]; exact KeepsDest.of_eq rfl
  · simp only [h, if_false]
    intro name' c hc _ _
    refine ⟨c, ?_, rfl, rfl, rfl, rfl⟩
    rw [← Dict.set_of_not_mem h, Dict.get?_set]
    have : name ≠ name' := by
      rintro rfl
      exact h (List.mem_map.mpr ⟨_, Dict.mem_of_get? hc, rfl⟩)
    simp [this, Ne.symm this, hc]

theorem withAll_eq (s : Study) (name g d : String) (f : Converter → Converter) :
    (s.withDest name g d).updConv name f =
      s.updConv name (fun c => f { c with destNetwork := g, destNode := d }) := by
  rw [Study.withDest_eq, updConv_updConv]

theorem keeps_setConverterDest (name g d : String) (cost mx : Raw) (s : Study) :
    KeepsDest s (Study.setConverterDest name g d cost mx s).2 := by
  rcases Study.setConverterDest_run name g d cost mx s with ⟨e, he⟩ | ⟨c, net, h1, h2, h3, h4, h⟩
  · rw [he]; exact KeepsDest.of_eq rfl
  · have key : ∀ f, KeepsDest s (s.updConv name f) := by
      intro f
      refine keeps_updConv ?_
      intro c' hc'
      rw [h1] at hc'; cases hc'
      exact .inl h2
    rcases h with ⟨e, _, he⟩ | ⟨cv, e, hc, _, he⟩ | ⟨cv, mv, hc, hm, he⟩
    · rw [he, Study.withDest_eq]; exact key _
    · rw [he, Study.withCost, withAll_eq]; exact key _
    · rw [he, Study.withCost, Study.withMax, updConv_updConv, withAll_eq]; exact key _

theorem keeps_addConverterSrc (name g d : String) (r : Raw) (s : Study) :
    KeepsDest s (Study.addConverterSrc name g d r s).2 := by
  rcases Study.addConverterSrc_run name g d r s with ⟨e, he⟩ | ⟨c, rv, h1, h2, h3, he⟩
  · rw [he]; exact KeepsDest.of_eq rfl
  · rw [he]; exact keeps_updConv (fun c _ => .inr ⟨rfl, rfl, rfl, rfl⟩)

theorem keeps_after (w : World) (c : Call) : KeepsDest w.study (w.after c).study := by
  have hlink : ∀ g src dest cost q, (Study.addLink g src dest cost q w.study).2.converters =
      w.study.converters := by
    intro g src dest cost q
    rcases Study.addLink_run g src dest cost q w.study with ⟨e, he⟩ | ⟨_, _, _, _, _, _, _, _, _, _, _, he⟩ <;>
      rw [he] <;> rfl
  have hlink' : ∀ r src dest cost q, KeepsDest w.study (link r src dest cost q w).2.study := by
    intro r src dest cost q
    rcases link_run r src dest cost q w with ⟨e, h, _⟩ | ⟨g, d, _, h⟩ <;> rw [h]
    · exact KeepsDest.of_eq rfl
    · exact KeepsDest.of_eq (hlink _ _ _ _ _)
  have hnode0 : ∀ g d, (Study.addNode g d w.study).2.converters = w.study.converters := by
    intro g d
    rcases Study.addNode_run g d w.study with ⟨_, he⟩ | ⟨net, _, he⟩
    · rw [he]
    · rw [he]; split <;> rfl
  have hnet0 : ∀ g, (Study.addNetwork g w.study).2.converters = w.study.converters := by
    intro g; rw [Study.addNetwork_run]; split <;> rfl
  have hnet : ∀ g, KeepsDest w.study (network g w).2.study := by
    intro g; rw [network_run]; exact KeepsDest.of_eq (hnet0 g)
  have hnode : ∀ r name, KeepsDest w.study (node r name w).2.study := by
    intro r name
    rcases node_run r name w with ⟨_, h⟩ | ⟨d, _, h⟩ | ⟨g, d, _, h⟩ <;> rw [h]
    · exact KeepsDest.of_eq rfl
    · exact KeepsDest.of_eq rfl
    · exact KeepsDest.of_eq (hnode0 _ _)
  have hconv : ∀ name net nd mx cost, KeepsDest w.study (converter name net nd mx cost w).2.study := by
    intro name net nd mx cost
    have := (keeps_addConverter name w.study).trans
      (keeps_setConverterDest name net nd cost mx (Study.addConverter name w.study).2)
    rcases converter_run name net nd mx cost w with ⟨e, _, h⟩ | ⟨_, h⟩ <;> rw [h] <;> exact this
  have hwith : ∀ r (f : String → String → PyM Study Unit),
      (∀ g d, (f g d w.study).2.converters = w.study.converters) →
      KeepsDest w.study ((do
        let net ← selNetwork r
        let nd ← selNode r
        onStudy (f net nd)
        pure (.node r) : PyM World Handle) w).2.study := by
    intro r f hf
    rcases withSel_run r f w with ⟨e, h, _⟩ | ⟨g, d, _, h⟩ <;> rw [h]
    · exact KeepsDest.of_eq rfl
    · exact KeepsDest.of_eq (hf _ _)
  unfold after
  cases c with
  | studyNetwork name => exact hnet name
  | studyAddNetwork name =>
    have : (step (.studyAddNetwork name) w).2.study = (Study.addNetwork name w.study).2 := by
      simp [step, onStudy, Study.addNetwork_run]
    rw [this]; exact KeepsDest.of_eq (hnet0 _)
  | studyAddNode g d =>
    have : (step (.studyAddNode g d) w).2.study = (Study.addNode g d w.study).2 := by
      simp only [step, onStudy, PyM.bind_run]
      cases Study.addNode g d w.study with
      | mk r s => cases r <;> simp
    rw [this]; exact KeepsDest.of_eq (hnode0 _ _)
  | studyAddLink g src dest cost q =>
    have : (step (.studyAddLink g src dest cost q) w).2.study =
        (Study.addLink g src dest cost q w.study).2 := by
      simp only [step, onStudy, PyM.bind_run]
      cases Study.addLink g src dest cost q w.study with
      | mk r s => cases r <;> simp
    rw [this]; exact KeepsDest.of_eq (hlink _ _ _ _ _)
  | netNode r name => exact hnode r name
  | netLink r src dest cost q => exact hlink' r src dest cost q
  | netNetwork r name => exact hnet name
  | netConverter r name net nd mx cost => exact hconv _ _ _ _ _
  | nodeConsumption r name cost q =>
    refine hwith r (fun g d => Study.addConsumption g d name cost q) ?_
    intro g d
    rcases Study.addConsumption_run g d name cost q w.study with ⟨e, he⟩ | ⟨_, _, _, _, _, _, _, _, _, _, he⟩ <;>
      rw [he] <;> rfl
  | nodeProduction r name cost q =>
    refine hwith r (fun g d => Study.addProduction g d name cost q) ?_
    intro g d
    rcases Study.addProduction_run g d name cost q w.study with ⟨e, he⟩ | ⟨_, _, _, _, _, _, _, _, _, _, he⟩ <;>
      rw [he] <;> rfl
  | nodeStorage r a =>
    refine hwith r (fun g d => Study.addStorage g d a) ?_
    intro g d
    rcases Study.addStorage_run g d a w.study with ⟨e, he⟩ |
      ⟨_, _, _, _, _, _, _, _, _, _, _, _, _, _, _, _, _, _, _, _, _, he⟩ <;>
      rw [he] <;> rfl
  | nodeNode r name => exact hnode r name
  | nodeLink r src dest cost q => exact hlink' r src dest cost q
  | nodeNetwork r name => exact hnet name
  | nodeConverter r name net nd mx cost => exact hconv _ _ _ _ _
  | nodeToConverter r name ratio =>
    rcases toConverter_run r name ratio w with ⟨e, h⟩ | ⟨g, d, _, h⟩ <;> rw [h]
    · exact keeps_addConverter _ _
    · exact (keeps_addConverter name w.study).trans (keeps_addConverterSrc _ _ _ _ _)

theorem keeps_run (w : World) (cs : List Call) : KeepsDest w.study (w.run cs).study := by
  induction cs generalizing w with
  | nil => exact KeepsDest.of_eq rfl
  | cons c cs ih => exact (keeps_after w c).trans (ih (w.after c))

end World
end Hadar
