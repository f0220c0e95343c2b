import Verif.Proofs.StudyInv

/-! # Lemmas on the fluent builder -/

set_option linter.unusedSimpArgs false

namespace Hadar

open Spec

/-- the raw values passed by a call -/
def Call.raws : Call → List Raw
  | .studyAddLink _ _ _ c q | .netLink _ _ _ c q | .nodeLink _ _ _ c q
  | .nodeConsumption _ _ c q | .nodeProduction _ _ c q
  | .netConverter _ _ _ _ q c | .nodeConverter _ _ _ _ q c => [c, q]
  | .nodeStorage _ a => [a.capacity, a.flowIn, a.flowOut, a.cost, a.eff]
  | .nodeToConverter _ _ r => [r]
  | _ => []

/-! ### Each study method makes only transitions -/

section
variable {V : NumVal → Prop} {s : Study}

theorem addConsumption_star {g d name : String} {cost q : Raw}
    (hV : ∀ r ∈ [cost, q], ∀ v, s.factory.create r = .ok v → V v) :
    TransStar V s (Study.addConsumption g d name cost q s).2 := by
  rcases Study.addConsumption_run g d name cost q s with ⟨e, he⟩ | ⟨net, n, qv, cv, h1, h2, h3, h4, h5, h6, he⟩
  · rw [he]; exact .refl _
  · rw [he]
    exact .single (.node g d net n _ h1 h2
      (.cons ⟨cv, qv, name⟩ h3 (hV q (by simp) _ h4) (hV cost (by simp) _ h6)))

theorem addProduction_star {g d name : String} {cost q : Raw}
    (hV : ∀ r ∈ [cost, q], ∀ v, s.factory.create r = .ok v → V v) :
    TransStar V s (Study.addProduction g d name cost q s).2 := by
  rcases Study.addProduction_run g d name cost q s with ⟨e, he⟩ | ⟨net, n, qv, cv, h1, h2, h3, h4, h5, h6, he⟩
  · rw [he]; exact .refl _
  · rw [he]
    exact .single (.node g d net n _ h1 h2
      (.prod ⟨name, cv, qv⟩ h3 (hV q (by simp) _ h4) (hV cost (by simp) _ h6)))

theorem addStorage_star {g d : String} {a : Study.StorageArgs}
    (hV : ∀ r ∈ [a.capacity, a.flowIn, a.flowOut, a.cost, a.eff],
      ∀ v, s.factory.create r = .ok v → V v) :
    TransStar V s (Study.addStorage g d a s).2 := by
  rcases Study.addStorage_run g d a s with ⟨e, he⟩ |
    ⟨net, n, cap, fi, fo, cv, ev, h1, h2, h3, h4, h5, h6, h7, h8, h9, h10, h11, h12, h13, h14, he⟩
  · rw [he]; exact .refl _
  · rw [he]
    exact .single (.node g d net n _ h1 h2
      (.stor ⟨a.name, cap, fi, fo, cv, a.initCapacity, ev⟩ h3 (hV a.capacity (by simp) _ h8)
        (hV a.flowIn (by simp) _ h4) (hV a.flowOut (by simp) _ h5) (hV a.cost (by simp) _ h14)
        (hV a.eff (by simp) _ h11)))

theorem addLink_star {g src dest : String} {cost q : Raw}
    (hV : ∀ r ∈ [cost, q], ∀ v, s.factory.create r = .ok v → V v) :
    TransStar V s (Study.addLink g src dest cost q s).2 := by
  rcases Study.addLink_run g src dest cost q s with ⟨e, he⟩ | ⟨net, n, qv, cv, h1, h2, h3, h4, h5, h6, h7, he⟩
  · rw [he]; exact .refl _
  · rw [he]
    exact .single (.node g src net n _ h1 h2
      (.link ⟨dest, qv, cv⟩ h4 h3 (hV q (by simp) _ h5) (hV cost (by simp) _ h7)))

theorem addNetwork_star {g : String} : TransStar V s (Study.addNetwork g s).2 := by
  rw [Study.addNetwork_run]
  by_cases h : g ∈ s.networks.keys
  · simp only [h, if_true]; exact .refl _
  · simp only [h, if_false]; exact .single (.newNet g h)

theorem addNode_star {g d : String} : TransStar V s (Study.addNode g d s).2 := by
  rcases Study.addNode_run g d s with ⟨_, he⟩ | ⟨net, h1, he⟩
  · rw [he]; exact .refl _
  · rw [he]
    by_cases h : d ∈ net.nodes.keys
    · simp only [h, if_true]; exact .refl _
    · simp only [h, if_false]; exact .single (.newNode g d net h1 h)

theorem addConverter_star {name : String} : TransStar V s (Study.addConverter name s).2 := by
  rw [Study.addConverter_run]
  by_cases h : name ∈ s.converters.keys
  · simp only [h, if_true]; exact .refl _
  · simp only [h, if_false]; exact .single (.newConv name h)

theorem addConverterSrc_star {name g d : String} {r : Raw} (hn : ∃ n, HasNode s g d n)
    (hV : ∀ v, s.factory.create r = .ok v → V v) :
    TransStar V s (Study.addConverterSrc name g d r s).2 := by
  rcases Study.addConverterSrc_run name g d r s with ⟨e, he⟩ | ⟨c, rv, h1, h2, h3, he⟩
  · rw [he]; exact .refl _
  · rw [he]; exact .single (.convSrc name g d c rv h1 h2 hn (hV _ h3))

theorem setConverterDest_star {name g d : String} {cost max : Raw}
    (hV : ∀ r ∈ [cost, max], ∀ v, s.factory.create r = .ok v → V v) :
    TransStar V s (Study.setConverterDest name g d cost max s).2 := by
  rcases Study.setConverterDest_run name g d cost max s with ⟨e, he⟩ | ⟨c, net, h1, h2, h3, h4, h⟩
  · rw [he]; exact .refl _
  · have hn := hasNode_of_keys h3 h4
    have t1 : Trans V s (s.withDest name g d) := .convDest name g d c h1 h2 hn
    have g1 : (s.withDest name g d).converters.get? name
        = some { c with destNetwork := g, destNode := d } := by
      rw [Study.withDest_eq]
      simp [Study.updConv, Dict.get?_modify, h1]
    have t2 : ∀ cv, V cv → Trans V (s.withDest name g d) ((s.withDest name g d).withCost name cv) :=
      fun cv hv => .convCost name _ cv g1 hn hv
    have g2 : ∀ cv, ((s.withDest name g d).withCost name cv).converters.get? name
        = some { c with destNetwork := g, destNode := d, cost := .val cv } := by
      intro cv
      simp [Study.withCost, Study.updConv, Dict.get?_modify] at g1 ⊢
      simp [g1]
    have t3 : ∀ cv mv, V mv → Trans V ((s.withDest name g d).withCost name cv)
        (((s.withDest name g d).withCost name cv).withMax name mv) :=
      fun cv mv hv => .convMax name _ mv (g2 cv) hn hv
    rcases h with ⟨e, _, he⟩ | ⟨cv, e, hc, _, he⟩ | ⟨cv, mv, hc, hm, he⟩
    · rw [he]; exact .single t1
    · rw [he]; exact .tail _ _ _ (.single t1) (t2 cv (hV cost (by simp) _ hc))
    · rw [he]
      exact .tail _ _ _ (.tail _ _ _ (.single t1) (t2 cv (hV cost (by simp) _ hc)))
        (t3 cv mv (hV max (by simp) _ hm))

end

/-! ### Monotonicity -/

theorem Spec.DictExt.mem {K V : Type} {R : V → V → Prop} {d d' : Dict K V} (h : DictExt R d d')
    {k : K} {v : V} (hm : (k, v) ∈ d) : ∃ v', (k, v') ∈ d' ∧ R v v' := by
  obtain ⟨f, b, rfl, hf⟩ := h
  induction hf with
  | nil => simp at hm
  | @cons p q l l' hpq _ ih =>
    rcases List.mem_cons.mp hm with rfl | hm
    · exact ⟨q.2, by rw [show (_, q.2) = q from Prod.ext hpq.1 rfl]; simp, hpq.2⟩
    · obtain ⟨v', h1, h2⟩ := ih hm
      exact ⟨v', by simp at h1 ⊢; tauto, h2⟩

theorem Spec.StudyExt.hasNode {s s' : Study} (h : StudyExt s s') {g d : String} {n : InputNode}
    (hn : HasNode s g d n) : ∃ n', HasNode s' g d n' ∧ NodeExt n n' := by
  obtain ⟨net, h1, h2⟩ := hn
  obtain ⟨net', h3, h4⟩ := h.networks.mem h1
  obtain ⟨n', h5, h6⟩ := h4.mem h2
  exact ⟨n', ⟨net', h3, h5⟩, h6⟩

/-- every selector designates existing objects -/
def SelOk (s : Study) (sel : Sel) : Prop :=
  ∀ g, sel.network = some g →
    (∃ net, (g, net) ∈ s.networks) ∧ ∀ d, sel.node = some d → ∃ n, HasNode s g d n

theorem SelOk.mono {s s' : Study} (h : StudyExt s s') {sel : Sel} (hs : SelOk s sel) :
    SelOk s' sel := by
  intro g hg
  obtain ⟨⟨net, h1⟩, h2⟩ := hs g hg
  obtain ⟨net', h3, _⟩ := h.networks.mem h1
  refine ⟨⟨net', h3⟩, fun d hd => ?_⟩
  obtain ⟨n, hn⟩ := h2 d hd
  obtain ⟨n', hn', _⟩ := h.hasNode hn
  exact ⟨n', hn'⟩

structure WorldInv (w : World) : Prop where
  study : StudyInv w.study
  sels : ∀ sel ∈ w.heap, SelOk w.study sel

namespace World

theorem withSel_run (ref : ℕ) (f : String → String → PyM Study Unit) (w : World) :
    (∃ e, (do
        let net ← selNetwork ref
        let nd ← selNode ref
        onStudy (f net nd)
        pure (.node ref) : PyM World Handle) w = (.error e, w) ∧
      ∀ g d, w.heap[ref]? ≠ some ⟨some g, some d⟩) ∨
    ∃ g d, w.heap[ref]? = some ⟨some g, some d⟩ ∧
      (do
        let net ← selNetwork ref
        let nd ← selNode ref
        onStudy (f net nd)
        pure (.node ref) : PyM World Handle) w =
        ((f g d w.study).1.map (fun _ => .node ref), { w with study := (f g d w.study).2 }) := by
  simp only [selNetwork, selNode, selOf, PyM.bind_run, onStudy]
  cases hh : w.heap[ref]? with
  | none => left; exact ⟨.attributeError, by simp, by simp⟩
  | some sel =>
    obtain ⟨g, d⟩ := sel
    cases g with
    | none => left; exact ⟨.keyError, by simp, by simp⟩
    | some g =>
      cases d with
      | none => left; exact ⟨.keyError, by simp [hh], by simp⟩
      | some d =>
        right
        refine ⟨g, d, rfl, ?_⟩
        simp only [PyM.pure_run, hh]
        cases hf : f g d w.study with
        | mk r s => cases r <;> simp [Except.map]

theorem link_run (ref : ℕ) (src dest : String) (cost q : Raw) (w : World) :
    (∃ e, link ref src dest cost q w = (.error e, w) ∧
      ∀ g d, w.heap[ref]? ≠ some ⟨some g, d⟩) ∨
    ∃ g d, w.heap[ref]? = some ⟨some g, d⟩ ∧
      link ref src dest cost q w =
        ((Study.addLink g src dest cost q w.study).1.map (fun _ => .net ref),
          { w with study := (Study.addLink g src dest cost q w.study).2 }) := by
  simp only [link, selNetwork, selOf, PyM.bind_run, onStudy]
  cases hh : w.heap[ref]? with
  | none => left; exact ⟨.attributeError, by simp, by simp⟩
  | some sel =>
    obtain ⟨g, d⟩ := sel
    cases g with
    | none => left; exact ⟨.keyError, by simp, by simp⟩
    | some g =>
      right
      refine ⟨g, d, rfl, ?_⟩
      simp only [PyM.pure_run]
      cases hf : Study.addLink g src dest cost q w.study with
      | mk r s => cases r <;> simp [Except.map]

/-- the heap after `.node(name)` -/
def setNode (heap : List Sel) (ref : ℕ) (name : String) : List Sel :=
  heap.modify ref (fun s => { s with node := some name })

theorem node_run (ref : ℕ) (name : String) (w : World) :
    (w.heap[ref]? = none ∧ node ref name w = (.error .attributeError, w)) ∨
    (∃ d, w.heap[ref]? = some ⟨none, d⟩ ∧
      node ref name w = (.error .keyError, { w with heap := setNode w.heap ref name })) ∨
    ∃ g d, w.heap[ref]? = some ⟨some g, d⟩ ∧
      node ref name w = ((Study.addNode g name w.study).1.map (fun _ => .node ref),
        ⟨(Study.addNode g name w.study).2, setNode w.heap ref name⟩) := by
  simp only [node, selNetwork, selOf, PyM.bind_run, onStudy, PyM.modify_run, List.getElem?_modify_eq]
  cases hh : w.heap[ref]? with
  | none => left; simp
  | some sel =>
    obtain ⟨g, d⟩ := sel
    right
    cases g with
    | none => left; refine ⟨d, rfl, ?_⟩; simp [hh, setNode]
    | some g =>
      right
      refine ⟨g, d, rfl, ?_⟩
      cases hf : Study.addNode g name w.study with
      | mk r s => cases r <;> simp [Except.map, hh, hf, setNode]

theorem network_run (name : String) (w : World) :
    network name w = (.ok (.net w.heap.length),
      ⟨(Study.addNetwork name w.study).2, w.heap ++ [⟨some name, none⟩]⟩) := by
  simp [network, onStudy, alloc, Study.addNetwork_run]

theorem converter_run (name net nd : String) (mx cost : Raw) (w : World) :
    (∃ e, (Study.setConverterDest name net nd cost mx (Study.addConverter name w.study).2).1 = .error e ∧
      converter name net nd mx cost w = (.error e, { w with study :=
        (Study.setConverterDest name net nd cost mx (Study.addConverter name w.study).2).2 })) ∨
    ((Study.setConverterDest name net nd cost mx (Study.addConverter name w.study).2).1 = .ok () ∧
      converter name net nd mx cost w = (.ok (.net w.heap.length),
        ⟨(Study.setConverterDest name net nd cost mx (Study.addConverter name w.study).2).2,
          w.heap ++ [⟨none, none⟩]⟩)) := by
  simp only [converter, onStudy, alloc, PyM.bind_run, Study.addConverter_run]
  generalize (if name ∈ w.study.converters.keys then w.study else _) = s1
  cases hf : Study.setConverterDest name net nd cost mx s1 with
  | mk r s => cases r <;> simp

theorem toConverter_run (ref : ℕ) (name : String) (r : Raw) (w : World) :
    (∃ e, step (.nodeToConverter ref name r) w =
        (.error e, { w with study := (Study.addConverter name w.study).2 })) ∨
    ∃ g d, w.heap[ref]? = some ⟨some g, some d⟩ ∧
      step (.nodeToConverter ref name r) w =
        ((Study.addConverterSrc name g d r (Study.addConverter name w.study).2).1.map
            (fun _ => .node ref),
          { w with study := (Study.addConverterSrc name g d r (Study.addConverter name w.study).2).2 }) := by
  have h1 : step (.nodeToConverter ref name r) w = (do
        let net ← selNetwork ref
        let nd ← selNode ref
        onStudy (Study.addConverterSrc name net nd r)
        pure (.node ref) : PyM World Handle) { w with study := (Study.addConverter name w.study).2 } := by
    simp only [step, PyM.bind_run, onStudy, Study.addConverter_run]
  rw [h1]
  rcases withSel_run ref (fun g d => Study.addConverterSrc name g d r)
    { w with study := (Study.addConverter name w.study).2 } with ⟨e, he, _⟩ | ⟨g, d, hg, he⟩
  · left; exact ⟨e, he⟩
  · right; exact ⟨g, d, hg, he⟩

/-! ### every call makes only transitions -/

theorem addConverter_factory (name : String) (s : Study) :
    (Study.addConverter name s).2.factory = s.factory := by
  rw [Study.addConverter_run]; split <;> rfl

theorem selOk_getElem {w : World} (hi : WorldInv w) {ref : ℕ} {sel : Sel}
    (h : w.heap[ref]? = some sel) : SelOk w.study sel :=
  hi.sels _ (List.mem_of_getElem? h)

theorem mem_setNode {heap : List Sel} {ref : ℕ} {name : String} {sel : Sel}
    (h : sel ∈ setNode heap ref name) :
    sel ∈ heap ∨ ∃ s, heap[ref]? = some s ∧ sel = { s with node := some name } := by
  unfold setNode at h
  obtain ⟨i, hi⟩ := List.mem_iff_getElem?.mp h
  rw [List.getElem?_modify] at hi
  by_cases hr : ref = i
  · subst hr
    simp only [if_true] at hi
    cases hx : heap[ref]? with
    | none => simp [hx] at hi
    | some s => right; exact ⟨s, rfl, by simpa [hx] using hi.symm⟩
  · left
    simp only [hr, if_false] at hi
    exact List.mem_of_getElem? (by simpa using hi)

theorem step_star {V : NumVal → Prop} {w : World} (hi : WorldInv w) (c : Call)
    (hV : ∀ r ∈ c.raws, ∀ v, w.study.factory.create r = .ok v → V v) :
    TransStar V w.study (w.after c).study := by
  have hnode : ∀ ref name, TransStar V w.study (node ref name w).2.study := by
    intro ref name
    rcases node_run ref name w with ⟨_, h⟩ | ⟨_, _, h⟩ | ⟨g, d, _, h⟩
    · rw [h]; exact .refl _
    · rw [h]; exact .refl _
    · rw [h]; exact addNode_star
  have hlink : ∀ ref src dest cost q, (∀ r ∈ [cost, q], ∀ v, w.study.factory.create r = .ok v → V v) →
      TransStar V w.study (link ref src dest cost q w).2.study := by
    intro ref src dest cost q hV
    rcases link_run ref src dest cost q w with ⟨e, h, _⟩ | ⟨g, d, _, h⟩
    · rw [h]; exact .refl _
    · rw [h]; exact addLink_star hV
  have hnet : ∀ name, TransStar V w.study (network name w).2.study := by
    intro name; rw [network_run]; exact addNetwork_star
  have hconv : ∀ name net nd mx cost,
      (∀ r ∈ [cost, mx], ∀ v, w.study.factory.create r = .ok v → V v) →
      TransStar V w.study (converter name net nd mx cost w).2.study := by
    intro name net nd mx cost hV
    have : TransStar V w.study
        (Study.setConverterDest name net nd cost mx (Study.addConverter name w.study).2).2 := by
      refine addConverter_star.trans (setConverterDest_star ?_)
      rw [addConverter_factory]; exact hV
    rcases converter_run name net nd mx cost w with ⟨e, _, h⟩ | ⟨_, h⟩ <;> rw [h] <;> exact this
  unfold after
  cases c with
  | studyNetwork name => exact hnet name
  | studyAddNetwork name =>
    have : (step (.studyAddNetwork name) w).2.study = (Study.addNetwork name w.study).2 := by
      simp [step, onStudy, Study.addNetwork_run]
    rw [this]; exact addNetwork_star
  | studyAddNode g d =>
    have : (step (.studyAddNode g d) w).2.study = (Study.addNode g d w.study).2 := by
      simp only [step, onStudy, PyM.bind_run]
      cases Study.addNode g d w.study with
      | mk r s => cases r <;> simp
    rw [this]; exact addNode_star
  | studyAddLink g src dest cost q =>
    have : (step (.studyAddLink g src dest cost q) w).2.study =
        (Study.addLink g src dest cost q w.study).2 := by
      simp only [step, onStudy, PyM.bind_run]
      cases Study.addLink g src dest cost q w.study with
      | mk r s => cases r <;> simp
    rw [this]; exact addLink_star hV
  | netNode ref name => exact hnode ref name
  | netLink ref src dest cost q => exact hlink ref src dest cost q hV
  | netNetwork ref name => exact hnet name
  | netConverter ref name net nd mx cost => exact hconv _ _ _ _ _ hV
  | nodeConsumption ref name cost q =>
    rcases withSel_run ref (fun g d => Study.addConsumption g d name cost q) w with ⟨e, h, _⟩ | ⟨g, d, _, h⟩
    · show TransStar V w.study (_ : Except PyErr Handle × World).2.study
      rw [show step (.nodeConsumption ref name cost q) w = _ from h]; exact .refl _
    · rw [show step (.nodeConsumption ref name cost q) w = _ from h]; exact addConsumption_star hV
  | nodeProduction ref name cost q =>
    rcases withSel_run ref (fun g d => Study.addProduction g d name cost q) w with ⟨e, h, _⟩ | ⟨g, d, _, h⟩
    · rw [show step (.nodeProduction ref name cost q) w = _ from h]; exact .refl _
    · rw [show step (.nodeProduction ref name cost q) w = _ from h]; exact addProduction_star hV
  | nodeStorage ref a =>
    rcases withSel_run ref (fun g d => Study.addStorage g d a) w with ⟨e, h, _⟩ | ⟨g, d, _, h⟩
    · rw [show step (.nodeStorage ref a) w = _ from h]; exact .refl _
    · rw [show step (.nodeStorage ref a) w = _ from h]; exact addStorage_star hV
  | nodeNode ref name => exact hnode ref name
  | nodeLink ref src dest cost q => exact hlink ref src dest cost q hV
  | nodeNetwork ref name => exact hnet name
  | nodeConverter ref name net nd mx cost => exact hconv _ _ _ _ _ hV
  | nodeToConverter ref name r =>
    rcases toConverter_run ref name r w with ⟨e, h⟩ | ⟨g, d, hg, h⟩
    · rw [h]; exact addConverter_star
    · rw [h]
      have h1 : TransStar V w.study (Study.addConverter name w.study).2 := addConverter_star
      refine h1.trans (addConverterSrc_star ?_ ?_)
      · obtain ⟨n, hn⟩ := ((selOk_getElem hi hg).mono h1.ext g rfl).2 d rfl
        exact ⟨n, hn⟩
      · rw [addConverter_factory]; exact hV r (by simp [Call.raws])

/-- what a call does to the selectors -/
theorem step_heap (w : World) (hi : WorldInv w) (c : Call) :
    ∀ sel ∈ (w.after c).heap, SelOk (w.after c).study sel := by
  have hext : StudyExt w.study (w.after c).study :=
    (step_star (V := fun _ => True) hi c (fun _ _ _ _ => trivial)).ext
  have hold : ∀ sel ∈ w.heap, SelOk (w.after c).study sel :=
    fun sel hs => (hi.sels sel hs).mono hext
  have hnode : ∀ ref name, w.after c = (node ref name w).2 →
      ∀ sel ∈ (w.after c).heap, SelOk (w.after c).study sel := by
    intro ref name hc sel hs
    rcases node_run ref name w with ⟨_, h⟩ | ⟨d, hr, h⟩ | ⟨g, d, hr, h⟩
    · rw [hc, h] at hs; exact hold sel hs
    · rw [hc, h] at hs
      rcases mem_setNode hs with hs | ⟨s, hs', rfl⟩
      · exact hold sel hs
      · rw [hr] at hs'; cases hs'
        intro g hg; cases hg
    · have hstudy : (w.after c).study = (Study.addNode g name w.study).2 := by rw [hc, h]
      rw [hc, h] at hs
      rcases mem_setNode hs with hs | ⟨s, hs', rfl⟩
      · exact hold sel hs
      · rw [hr] at hs'; cases hs'
        intro g' hg'
        cases hg'
        obtain ⟨⟨net, hnet⟩, _⟩ := hold ⟨some g, d⟩ (List.mem_of_getElem? hr) g rfl
        refine ⟨⟨net, hnet⟩, ?_⟩
        intro d' hd'
        cases hd'
        rw [hstudy]
        rcases Study.addNode_run g name w.study with ⟨hnone, _⟩ | ⟨net0, h1, he⟩
        · obtain ⟨⟨net0, hnet0⟩, _⟩ := selOk_getElem hi hr g rfl
          rw [hi.study.get?_network hnet0] at hnone; cases hnone
        · rw [he]
          by_cases hk : name ∈ net0.nodes.keys
          · simp only [hk, if_true]; exact hasNode_of_keys h1 hk
          · simp only [hk, if_false]
            refine ⟨⟨[], [], [], []⟩, ⟨net0.nodes.set name ⟨[], [], [], []⟩⟩, ?_, ?_⟩
            · refine (Dict.mem_modify_iff (d := w.study.networks) hi.study.names.networks).mpr
                (.inr ⟨net0, Dict.mem_of_get? h1, rfl⟩)
            · exact Dict.mem_of_get? (Dict.get?_set_self _ _ _)
  have hnet : ∀ name, w.after c = (network name w).2 →
      ∀ sel ∈ (w.after c).heap, SelOk (w.after c).study sel := by
    intro name hc sel hs
    have hstudy : (w.after c).study = (Study.addNetwork name w.study).2 := by rw [hc, network_run]
    rw [hc, network_run] at hs
    simp only [List.mem_append, List.mem_singleton] at hs
    rcases hs with hs | rfl
    · exact hold sel hs
    · intro g hg
      cases hg
      refine ⟨?_, by intro d hd; cases hd⟩
      rw [hstudy, Study.addNetwork_run]
      by_cases h : name ∈ w.study.networks.keys
      · simp only [h, if_true]
        obtain ⟨⟨k, net⟩, hm, rfl⟩ := List.mem_map.mp h
        exact ⟨net, hm⟩
      · simp only [h, if_false]; exact ⟨⟨[]⟩, by simp⟩
  have hsame : (w.after c).heap = w.heap →
      ∀ sel ∈ (w.after c).heap, SelOk (w.after c).study sel := by
    intro hh sel hs; rw [hh] at hs; exact hold sel hs
  have hconv : ∀ name net nd mx cost, w.after c = (converter name net nd mx cost w).2 →
      ∀ sel ∈ (w.after c).heap, SelOk (w.after c).study sel := by
    intro name net nd mx cost hc sel hs
    rcases converter_run name net nd mx cost w with ⟨e, _, h⟩ | ⟨_, h⟩
    · rw [hc, h] at hs; exact hold sel hs
    · rw [hc, h] at hs
      simp only [List.mem_append, List.mem_singleton] at hs
      rcases hs with hs | rfl
      · exact hold sel hs
      · intro g hg; cases hg
  have hlink : ∀ ref src dest cost q, w.after c = (link ref src dest cost q w).2 →
      (w.after c).heap = w.heap := by
    intro ref src dest cost q hc
    rcases link_run ref src dest cost q w with ⟨e, h, _⟩ | ⟨g, d, _, h⟩ <;> rw [hc, h]
  cases c with
  | studyNetwork name => exact hnet name rfl
  | studyAddNetwork name => apply hsame; simp [after, step, onStudy, Study.addNetwork_run]
  | studyAddNode g d =>
    apply hsame
    simp only [after, step, onStudy, PyM.bind_run]
    cases Study.addNode g d w.study with
    | mk r s => cases r <;> simp
  | studyAddLink g src dest cost q =>
    apply hsame
    simp only [after, step, onStudy, PyM.bind_run]
    cases Study.addLink g src dest cost q w.study with
    | mk r s => cases r <;> simp
  | netNode ref name => exact hnode ref name rfl
  | netLink ref src dest cost q => exact hsame (hlink ref src dest cost q rfl)
  | netNetwork ref name => exact hnet name rfl
  | netConverter ref name net nd mx cost => exact hconv _ _ _ _ _ rfl
  | nodeConsumption ref name cost q =>
    apply hsame; unfold after
    rcases withSel_run ref (fun g d => Study.addConsumption g d name cost q) w with ⟨e, h, _⟩ | ⟨g, d, _, h⟩ <;>
      rw [show step (.nodeConsumption ref name cost q) w = _ from h]
  | nodeProduction ref name cost q =>
    apply hsame; unfold after
    rcases withSel_run ref (fun g d => Study.addProduction g d name cost q) w with ⟨e, h, _⟩ | ⟨g, d, _, h⟩ <;>
      rw [show step (.nodeProduction ref name cost q) w = _ from h]
  | nodeStorage ref a =>
    apply hsame; unfold after
    rcases withSel_run ref (fun g d => Study.addStorage g d a) w with ⟨e, h, _⟩ | ⟨g, d, _, h⟩ <;>
      rw [show step (.nodeStorage ref a) w = _ from h]
  | nodeNode ref name => exact hnode ref name rfl
  | nodeLink ref src dest cost q => exact hsame (hlink ref src dest cost q rfl)
  | nodeNetwork ref name => exact hnet name rfl
  | nodeConverter ref name net nd mx cost => exact hconv _ _ _ _ _ rfl
  | nodeToConverter ref name r =>
    apply hsame; unfold after
    rcases toConverter_run ref name r w with ⟨e, h⟩ | ⟨g, d, _, h⟩ <;> rw [h]

theorem WorldInv.after {w : World} (hi : WorldInv w) (c : Call) : WorldInv (w.after c) :=
  ⟨hi.study.transStar (step_star (V := fun _ => True) hi c (fun _ _ _ _ => trivial)),
    step_heap w hi c⟩

theorem WorldInv.run {w : World} (hi : WorldInv w) (cs : List Call) : WorldInv (w.run cs) := by
  induction cs generalizing w with
  | nil => exact hi
  | cons c cs ih => exact ih (WorldInv.after hi c)

theorem studyInv_init (h n : ℕ) (v : Option String) : StudyInv (Study.init h n v) := by
  refine ⟨⟨by simp [Study.init], by simp [Study.init], ?_, ?_, ?_, ?_, by simp [Study.init],
    by simp [Study.init]⟩, ?_, ?_⟩
  · rintro g d n ⟨net, hm, _⟩; simp [Study.init] at hm
  · rintro g d n ⟨net, hm, _⟩; simp [Study.init] at hm
  · rintro g d n ⟨net, hm, _⟩; simp [Study.init] at hm
  · rintro g d n ⟨net, hm, _⟩; simp [Study.init] at hm
  · intro g net hm; simp [Study.init] at hm
  · intro p hp; simp [Study.init] at hp

theorem worldInv_start (h n : ℕ) : WorldInv (start h n) :=
  ⟨studyInv_init h n none, by intro sel hs; simp [start] at hs⟩

/-- every world reachable through the API -/
theorem reachable_inv (h n : ℕ) (cs : List Call) : WorldInv ((start h n).run cs) :=
  WorldInv.run (worldInv_start h n) cs

theorem run_ext {w : World} (hi : WorldInv w) (cs : List Call) :
    StudyExt w.study (w.run cs).study := by
  induction cs generalizing w with
  | nil => exact StudyExt.refl _
  | cons c cs ih =>
    exact (step_star (V := fun _ => True) hi c (fun _ _ _ _ => trivial)).ext.trans
      (ih (WorldInv.after hi c))

theorem raws_raw {c : Call} (h : RawCall c) : ∀ r ∈ c.raws, ∀ v, r ≠ .val v := by
  cases c <;> simp [Call.raws, RawCall] at h ⊢ <;> tauto

theorem usable_of_sized {h n : ℕ} {v : NumVal} (hv : v.Sized h n) : Usable h n v := by
  refine ⟨hv.flatten_length, fun i j hi hj => ?_⟩
  obtain ⟨q, hq⟩ := hv.at?_some hi hj
  exact ⟨q, hv.getitem hi hj hq⟩

/-- a property of the series that `create` gives is a property of all stored series -/
theorem run_all {V : NumVal → Prop} {w : World} (hi : WorldInv w) (hu : StudyAll V w.study)
    (cs : List Call) (hc : ∀ c ∈ cs, RawCall c)
    (hV : ∀ r v, (∀ v', r ≠ .val v') → w.study.factory.create r = .ok v → V v) :
    StudyAll V (w.run cs).study := by
  induction cs generalizing w with
  | nil => exact hu
  | cons c cs ih =>
    have hs := step_star (V := V) hi c (fun r hr v hv => hV r v (raws_raw (hc c (by simp)) r hr) hv)
    refine ih (WorldInv.after hi c) ?_ (fun c' hc' => hc c' (List.mem_cons_of_mem _ hc')) ?_
    · exact StudyAll.transStar hi.study hu hs
    · intro r v hr hv
      have hx := hs.ext
      refine hV r v hr ?_
      simp only [Study.factory] at hv ⊢
      rwa [← hx.horizon, ← hx.nbScn]

theorem run_usable {w : World} (hi : WorldInv w) (hu : AllUsable w.study) (cs : List Call)
    (hc : ∀ c ∈ cs, RawCall c) : AllUsable (w.run cs).study := by
  have := run_all hi hu cs hc
    (fun r v hr hv => usable_of_sized (h := w.study.horizon) (n := w.study.nbScn)
      (Factory.create_sized hr hv))
  have hx := run_ext hi cs
  unfold AllUsable
  rw [hx.horizon, hx.nbScn]; exact this

end World
end Hadar
