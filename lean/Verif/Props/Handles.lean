import Verif.Props.Study
import Verif.Spec.Handles

/-!
# C12, C08, C13, C05: more about handles, refused converter calls, and the other ways to make the same call
-/

namespace Hadar.Props

open Hadar Spec World

/-! ### C12 -/

theorem heap_last {w : World} {ref : ℕ} {g d : String} (cs : List Call) (hs : w.heap[ref]? = some ⟨some g, some d⟩) :
    (w.run cs).heap[ref]? = some ⟨some g, some (lastNode ref d cs)⟩ := by
  induction cs generalizing w d with
  | nil => exact hs
  | cons c cs ih =>
    have hnode : ∀ r x, (∃ w', (node r x w).2 = w' ∧ w'.heap[ref]? = some ⟨some g, some (if r = ref then x else d)⟩) := by
      intro r x
      refine ⟨_, rfl, ?_⟩
      have hset : (setNode w.heap r x)[ref]? = some ⟨some g, some (if r = ref then x else d)⟩ := by
        unfold setNode
        rw [List.getElem?_modify, hs]
        by_cases e : r = ref
        · simp [e]
        · simp [e]
      rcases node_run r x w with ⟨h0, h'⟩ | ⟨d', h0, h'⟩ | ⟨g', d', h0, h'⟩
      · rw [h']
        have e : r ≠ ref := by rintro rfl; rw [hs] at h0; cases h0
        simpa [e] using hs
      · rw [h']; exact hset
      · rw [h']; exact hset
    have hother : ¬ movesRef ref c → (∀ r x, c ≠ .netNode r x ∧ c ≠ .nodeNode r x) →
        (w.run (c :: cs)).heap[ref]? = some ⟨some g, some (lastNode ref d (c :: cs))⟩ := by
      intro hm hc
      have := ih (w := w.after c) (heap_after hs c hm)
      cases c <;> first | exact this | exact absurd rfl (hc _ _).1 | exact absurd rfl (hc _ _).2
    cases c with
    | netNode r x =>
      obtain ⟨w', e, h⟩ := hnode r x
      exact ih (w := w.after (.netNode r x)) (by rw [show w.after (.netNode r x) = w' from e]; exact h)
    | nodeNode r x =>
      obtain ⟨w', e, h⟩ := hnode r x
      exact ih (w := w.after (.nodeNode r x)) (by rw [show w.after (.nodeNode r x) = w' from e]; exact h)
    | _ => exact hother (by simp [movesRef]) (by simp)

/-- **C12**, what holds in all cases: the elements added through the handle returned by `.node(d)` of network `g` go to one node of
network `g`, the one named last in a `.node(...)` call on that handle or on the one it comes from. -/
theorem C12_exact (h n : ℕ) (cs cs' : List Call) (ref r : ℕ) (g d : String) (od : Option String) (w1 w2 : World)
    (hg : ((start h n).run cs).heap[ref]? = some ⟨some g, od⟩)
    (hnode : step (.netNode ref d) ((start h n).run cs) = (.ok (.node r), w1)) {hd : Handle} {last : String}
    (hl : last = lastNode r d cs') :
    (∀ name cost q, IsRaw q → IsRaw cost → step (.nodeConsumption r name cost q) (w1.run cs') = (.ok hd, w2) →
      ∃ nd qv cv, OnlyNodeChanged (w1.run cs').study w2.study g last nd
        { nd with consumptions := nd.consumptions ++ [⟨cv, qv, name⟩] }) ∧
    (∀ name cost q, IsRaw q → IsRaw cost → step (.nodeProduction r name cost q) (w1.run cs') = (.ok hd, w2) →
      ∃ nd qv cv, OnlyNodeChanged (w1.run cs').study w2.study g last nd
        { nd with productions := nd.productions ++ [⟨name, cv, qv⟩] }) ∧
    (∀ a, RawCall (.nodeStorage r a) → step (.nodeStorage r a) (w1.run cs') = (.ok hd, w2) →
      ∃ nd st, st.name = a.name ∧ OnlyNodeChanged (w1.run cs').study w2.study g last nd
        { nd with storages := nd.storages ++ [st] }) ∧
    (∀ name ratio, IsRaw ratio → step (.nodeToConverter r name ratio) (w1.run cs') = (.ok hd, w2) →
      ∃ c rv s1, (s1 = (w1.run cs').study ∨ (name ∉ (w1.run cs').study.converters.map Prod.fst ∧ s1 = { (w1.run cs').study with
        converters := (w1.run cs').study.converters ++ [(name, ⟨name, [], "", "", .int0, .int0⟩)] })) ∧
        OnlyConverterChanged s1 w2.study name c { c with srcRatios := c.srcRatios ++ [([g, last], rv)] }) ∧
    (∀ src dest cost q, IsRaw q → IsRaw cost → step (.nodeLink r src dest cost q) (w1.run cs') = (.ok hd, w2) →
      ∃ nd qv cv, OnlyNodeChanged (w1.run cs').study w2.study g src nd { nd with links := nd.links ++ [⟨dest, qv, cv⟩] }) := by
  subst hl
  obtain ⟨w1', h1, h2, _, _⟩ := C11_node h n cs _ rfl ref g od hg d
  rw [hnode] at h1
  cases h1
  have hsel := heap_last cs' h2
  refine ⟨?_, ?_, ?_, ?_, ?_⟩
  · intro name cost q hq hc hadd
    obtain ⟨g', d', nd, qv, cv, a1, a2, _⟩ := C09_consumption _ _ _ _ _ _ _ hq hc hadd
    rw [hsel] at a1; cases a1
    exact ⟨nd, qv, cv, a2⟩
  · intro name cost q hq hc hadd
    obtain ⟨g', d', nd, qv, cv, a1, a2, _⟩ := C09_production _ _ _ _ _ _ _ hq hc hadd
    rw [hsel] at a1; cases a1
    exact ⟨nd, qv, cv, a2⟩
  · intro a hr hadd
    obtain ⟨g', d', nd, st, a1, a2, a3, _⟩ := C09_storage _ _ _ _ _ hr hadd
    rw [hsel] at a1; cases a1
    exact ⟨nd, st, a3, a2⟩
  · intro name ratio hr hadd
    obtain ⟨g', d', c, rv, s1, a1, a2, a3, _⟩ := C09_converter_source _ _ _ _ _ _ hr hadd
    rw [hsel] at a1; cases a1
    exact ⟨c, rv, s1, a2, a3⟩
  · intro src dest cost q hq hc hadd
    obtain ⟨g', nd, qv, cv, a2, _, a3, _⟩ := C09_link _ _ _ _ _ _ _ _ (.inr (.inr ⟨_, rfl⟩)) hq hc hadd
    obtain ⟨x, hx⟩ := a3 _ (.inr rfl)
    rw [hsel] at hx; cases hx
    exact ⟨nd, qv, cv, a2⟩

/-! ### C08 -/

theorem get?_split_first {V : Type} (pre post : List (String × V)) {k : String} (v : V) (h : k ∉ pre.map Prod.fst) :
    Dict.get? (pre ++ (k, v) :: post) k = some v := by
  induction pre with
  | nil => simp [Dict.get?]
  | cons p pre ih =>
    simp only [List.map_cons, List.mem_cons, not_or] at h
    obtain ⟨k', v'⟩ := p
    simp only [List.cons_append, Dict.get?, if_neg (Ne.symm h.1)]
    exact ih h.2

theorem modify_split_first {V : Type} {d : Dict String V} {k : String} {v : V} (f : V → V) (h : d.get? k = some v) :
    ∃ pre post, d = pre ++ (k, v) :: post ∧ k ∉ pre.map Prod.fst ∧ d.modify k f = pre ++ (k, f v) :: post := by
  induction d with
  | nil => simp [Dict.get?] at h
  | cons p d ih =>
    obtain ⟨k', v'⟩ := p
    by_cases hk : k' = k
    · subst hk
      simp [Dict.get?] at h; subst h
      exact ⟨[], d, rfl, by simp, by simp [Dict.modify]⟩
    · simp [Dict.get?, hk] at h
      obtain ⟨pre, post, h1, h0, h2⟩ := ih h
      refine ⟨(k', v') :: pre, post, by rw [h1]; rfl, ?_, by simp [Dict.modify, hk, h2]⟩
      simp only [List.map_cons, List.mem_cons, not_or]
      exact ⟨Ne.symm hk, h0⟩

/-- **C08**, what a refused converter call leaves behind: networks and other converters are as they were, so are the sources of the
converter named, which may have been created, or given a destination if it had none. -/
theorem C08_converter (w w' : World) (c : Call) (e : PyErr) {name : String} (hc : converterOf c = some name)
    (h : step c w = (.error e, w')) : LeftBehind name w.study w'.study ∧ w'.heap = w.heap := by
  have hbase : ∃ base, (base = w.study.converters ∨ name ∉ w.study.converters.map Prod.fst ∧
      base = w.study.converters ++ [(name, ⟨name, [], "", "", .int0, .int0⟩)]) ∧
      (Study.addConverter name w.study).2 = { w.study with converters := base } := by
    rw [Study.addConverter_run]
    by_cases hk : name ∈ w.study.converters.keys
    · exact ⟨_, .inl rfl, by simp only [hk, if_true]⟩
    · exact ⟨_, .inr ⟨hk, rfl⟩, by simp only [hk, if_false]⟩
  obtain ⟨base, hb, eb⟩ := hbase
  have hupd : ∀ (s : Study) (f : Converter → Converter) (c : Converter), s.converters.get? name = some c →
      ∃ pre post, s.converters = pre ++ (name, c) :: post ∧ name ∉ pre.map Prod.fst ∧
        s.updConv name f = { s with converters := pre ++ (name, f c) :: post } := by
    intro s f c hg
    obtain ⟨pre, post, e1, e0, e2⟩ := modify_split_first f hg
    exact ⟨pre, post, e1, e0, by rw [Study.updConv, e2]⟩
  have hconv : ∀ net nd mx cost, converter name net nd mx cost w = (.error e, w') →
      LeftBehind name w.study w'.study ∧ w'.heap = w.heap := by
    intro net nd mx cost hx
    rcases converter_run name net nd mx cost w with ⟨e', _, h'⟩ | ⟨_, h'⟩
    · rw [h'] at hx
      cases hx
      refine ⟨⟨base, hb, ?_⟩, rfl⟩
      rw [eb]
      rcases Study.setConverterDest_run name net nd cost mx { w.study with converters := base } with
        ⟨e1, he⟩ | ⟨c, n0, h1, h2, _, _, ⟨e1, _, he⟩ | ⟨cv, e1, _, _, he⟩ | ⟨cv, mv, _, _, he⟩⟩
      · left; rw [he]
      · right
        rw [he, Study.withDest_eq]
        obtain ⟨pre, post, p1, p0, p2⟩ := hupd { w.study with converters := base } (fun c => { c with destNetwork := net, destNode := nd }) c h1
        refine ⟨pre, c, _, post, p1, p0, h2, ?_, ?_, p2⟩ <;> rfl
      · right
        rw [he, Study.withCost, withAll_eq]
        obtain ⟨pre, post, p1, p0, p2⟩ := hupd { w.study with converters := base } (fun c => { c with destNetwork := net, destNode := nd, cost := .val cv }) c h1
        refine ⟨pre, c, _, post, p1, p0, h2, ?_, ?_, p2⟩ <;> rfl
      · right
        rw [he, Study.withCost, Study.withMax, updConv_updConv, withAll_eq]
        obtain ⟨pre, post, p1, p0, p2⟩ := hupd { w.study with converters := base }
          (fun c => { c with destNetwork := net, destNode := nd, cost := .val cv, max := .val mv }) c h1
        refine ⟨pre, c, _, post, p1, p0, h2, ?_, ?_, p2⟩ <;> rfl
    · rw [h'] at hx; cases hx
  cases c with
  | netConverter r nm net nd mx cost => cases hc; exact hconv _ _ _ _ h
  | nodeConverter r nm net nd mx cost => cases hc; exact hconv _ _ _ _ h
  | nodeToConverter r nm ratio =>
    cases hc
    rcases toConverter_run r name ratio w with ⟨e', h'⟩ | ⟨g, d, _, h'⟩
    · rw [h'] at h
      cases h
      exact ⟨⟨base, hb, .inl eb⟩, rfl⟩
    · rw [h'] at h
      rcases Study.addConverterSrc_run name g d ratio (Study.addConverter name w.study).2 with ⟨e', he⟩ | ⟨c, rv, _, _, _, he⟩
      · rw [he] at h
        cases h
        exact ⟨⟨base, hb, .inl eb⟩, rfl⟩
      · rw [he] at h; cases h
  | _ => cases hc

/-- ... and with a converter that already has a destination under non-empty names, a refused call changes nothing. -/
theorem C08_converter_set (w w' : World) (c : Call) (e : PyErr) {name : String} (hc : converterOf c = some name)
    (h : step c w = (.error e, w')) {v : Converter} (hv : w.study.converters.get? name = some v)
    (h1 : v.destNetwork ≠ "") (h2 : v.destNode ≠ "") : w'.study = w.study := by
  obtain ⟨⟨base, hb, hs⟩, _⟩ := C08_converter w w' c e hc h
  have hk : name ∈ w.study.converters.map Prod.fst := List.mem_map.mpr ⟨_, Dict.mem_of_get? hv, rfl⟩
  rcases hb with rfl | ⟨hn, _⟩
  · rcases hs with hs | ⟨pre, c0, c', post, e1, e0, h3, _, _, e2⟩
    · exact hs
    · rw [e1] at hv
      have := get?_split_first pre post c0 e0
      rw [this] at hv
      cases hv
      rcases h3 with h3 | h3
      · exact absurd h3 h1
      · exact absurd h3 h2
  · exact absurd hk hn

/-! ### C13, C05: other ways to make the same call -/

/-- **C13**: a second destination is refused on every handle -/
theorem C13_second_refused_node_partial (w : World) (name g d : String) (mx cost : Raw) (r : ℕ)
    (c : Converter) (hc : w.study.converters.get? name = some c) (h1 : c.destNetwork ≠ "") (h2 : c.destNode ≠ "") :
    step (.nodeConverter r name g d mx cost) w = (.error .valueError, w) :=
  C13_second_refused_partial w name g d mx cost r c hc h1 h2

/-- **C05** for links given to the study or to a node handle: accepted or refused as by a network handle. -/
theorem C05_link_same (w : World) (ref : ℕ) (g src dest : String) (od : Option String) (cost q : Raw)
    (hg : w.heap[ref]? = some ⟨some g, od⟩) :
    step (.nodeLink ref src dest cost q) w = step (.netLink ref src dest cost q) w ∧
    (∀ e, (step (.studyAddLink g src dest cost q) w).1 = .error e ↔ (step (.netLink ref src dest cost q) w).1 = .error e) ∧
    (step (.studyAddLink g src dest cost q) w).2 = (step (.netLink ref src dest cost q) w).2 := by
  refine ⟨rfl, ?_⟩
  rcases link_run ref src dest cost q w with ⟨e, _, hno⟩ | ⟨g', d', hg', he⟩
  · exact absurd hg (hno g od)
  · rw [hg] at hg'; cases hg'
    rw [show step (.netLink ref src dest cost q) w = _ from he]
    simp only [step, onStudy, PyM.bind_run]
    cases hx : Study.addLink g src dest cost q w.study with
    | mk a s => cases a <;> simp [Except.map]

/-! ### Concrete cases -/

/-- two nodes taken from one network handle: both handles act on the second one -/
example : lastNode 0 "a" [.nodeConsumption 0 "x" (.num 1) (.num 1), .netNode 0 "b", .netNode 1 "c"] = "b" := by decide +kernel

/-- a refused call that leaves a converter behind -/
example : (step (.nodeToConverter 0 "new" (.json (.str "x"))) ((start 2 1).run demoCalls)).1 = .error .valueError ∧
    (step (.nodeToConverter 0 "new" (.json (.str "x"))) ((start 2 1).run demoCalls)).2.study ≠ ((start 2 1).run demoCalls).study := by
  decide +kernel

/-- a refused call on a converter with a destination -/
example : (step (.netConverter 0 "conv" "elec" "a" (.num 1) (.num 1)) ((start 2 1).run demoCalls)).1 = .error .valueError ∧
    (((start 2 1).run demoCalls).study.converters.get? "conv").map (fun v => (v.destNetwork, v.destNode)) = some ("elec", "b") := by
  decide +kernel

/-! ### The theorems applied to concrete cases -/

example := (C12_exact 2 1 demoCalls [.netNode 0 "a"] 0 0 "elec" "b" (some "a") _ _ (by decide +kernel)
  (accepted_pair (by decide +kernel)) (hd := .node 0) rfl).1 "night" (.num 5) (.json (jrow [1, 2])) (by simp [IsRaw])
  (by simp [IsRaw]) (accepted_pair (by decide +kernel))
example := C08_converter demo _ (.nodeToConverter 0 "new" (.json (.str "x"))) .valueError (name := "new") rfl
  (refused_pair (by decide +kernel))
example := C08_converter_set demo _ (.netConverter 0 "conv" "elec" "a" (.num 1) (.num 1)) .valueError (name := "conv") rfl
  (refused_pair (by decide +kernel))
  (v := ⟨"conv", [(["gas", "a"], ⟨.scalar (1/2), 2, 1⟩)], "elec", "b", .val ⟨.scalar 3, 2, 1⟩, .val ⟨.scalar 100, 2, 1⟩⟩)
  (by decide +kernel) (by decide) (by decide)
example := C13_second_refused_node_partial demo "conv" "elec" "a" (.num 1) (.num 1) 0
  ⟨"conv", [(["gas", "a"], ⟨.scalar (1/2), 2, 1⟩)], "elec", "b", .val ⟨.scalar 3, 2, 1⟩, .val ⟨.scalar 100, 2, 1⟩⟩
  (by decide +kernel) (by decide) (by decide)
example := C05_link_same demo 0 "elec" "b" "a" (some "a") (.num 3) (.json (jrow [-1, 2])) (by decide +kernel)

end Hadar.Props
