import Verif.Props.Building

/-!
# Cases and counterexamples for the workflow pipeline (C47 - C56, C66)
-/

namespace Hadar.Props

open Hadar Spec

/-! ### A generator and data -/

/-- a generator: the state is a number; no fault occurs in state 0, a fault at each step otherwise -/
def g0 : Rng ℕ where
  seed n := n
  count _ n s := (if s = 0 then 0 else n, s)
  randint low _ size s := (List.replicate size low, s)

theorem g0_lawful : Lawful g0 where
  count_le := by intro f n s; simp only [g0]; split <;> omega
  randint_length := by intro low high size s _; simp [g0]
  randint_mem := by
    intro low high size s h z hz
    simp only [g0] at hz
    rw [List.mem_replicate] at hz
    obtain ⟨_, rfl⟩ := hz
    exact ⟨le_rfl, h⟩

/-- the operating system gives `k`, always -/
def rand (k : Fin (2 ^ 32)) : Rand ℕ := ⟨0, fun _ => k⟩

/-- three steps of a quantity and of a price, without scenarios -/
def plainData : Data :=
  .plain ⟨rangeIndex 3, [("quantity", [some 10, some 20, none]), ("price", [some 1, some 2, some 3])]⟩

/-- two scenarios of two steps -/
def twoScenarios : Timeline :=
  ⟨rangeIndex 2, [((.num 0, "quantity"), [some 10, some 20]), ((.num 0, "price"), [some 1, some 2]),
    ((.num 7, "quantity"), [some 30, some 40]), ((.num 7, "price"), [some 3, some 4])]⟩

/-! ### Cases meeting the hypotheses -/

/-- C47: a pipeline of three stages on plain data -/
example : (((do
    let a ← PipeWorld.newRename [("quantity", "q")]
    let b ← PipeWorld.newClip (some 0) (some 15)
    let c ← PipeWorld.newDrop ["q"]
    let l ← PipeWorld.newList [a, b]
    let _ ← PipeWorld.newPipeline l
    PipeWorld.pipeAdd 0 c) : PyM (PipeWorld ℕ) ℕ) PipeWorld.empty).1.toOption = some 0 := by decide +kernel

/-- the session of that case -/
def session : PipeWorld ℕ := (((do
    let a ← PipeWorld.newRename [("quantity", "q")]
    let b ← PipeWorld.newClip (some 0) (some 15)
    let l ← PipeWorld.newList [a, b]
    PipeWorld.newPipeline l) : PyM (PipeWorld ℕ) ℕ) PipeWorld.empty).2

example : (session.callPipe g0 0 (plainData, rand 0)).1.toOption =
    some ⟨rangeIndex 3, [((.num 0, "q"), [some 10, some 15, none]),
      ((.num 0, "price"), [some 1, some 2, some 3])]⟩ := by decide +kernel

/-- it fails on data without the column -/
example : (session.callPipe g0 0 (.multi ⟨[], []⟩, rand 0)).1.toOption = none := by decide +kernel

/-- C49: two restricted plugs -/
example : Sees [["x", "y"], ["z"]] (.restricted ["a"] 0) (some (["a"], ["x", "y"])) ∧
    Sees [["x", "y"], ["z"]] (.restricted ["x"] 1) (some (["x"], ["z"])) ∧
    MayFollow (some (["a"], ["x", "y"])) (some (["x"], ["z"])) :=
  ⟨.restricted rfl, .restricted rfl, by simp [MayFollow]⟩

example : ((Plug.restricted ["a"] 0).add (.restricted ["x"] 1) [["x", "y"], ["z"]]).2 =
    [["x", "y"], ["z", "y"]] := by decide +kernel

/-- C50: a frame with two scenarios is regular -/
example : Regular [.num 0, .num 7] ["quantity", "price"]
    (fun s n => if s = .num 0 then (if n = "quantity" then [some 10, some 20] else [some 1, some 2])
      else (if n = "quantity" then [some 30, some 40] else [some 3, some 4])) twoScenarios := by
  refine ⟨by decide +kernel, by decide +kernel, by simp, by decide +kernel⟩

example : ((((PipeWorld.newRepeat 2 : PyM (PipeWorld ℕ) ℕ) PipeWorld.empty).2.callStage g0 0
    (.multi twoScenarios, rand 0)).1.toOption.map fun t => t.cols.map (·.1)) =
    some [(.num 0, "quantity"), (.num 0, "price"), (.num 1, "quantity"), (.num 1, "price"),
      (.num 2, "quantity"), (.num 2, "price"), (.num 3, "quantity"), (.num 3, "price")] := by
  decide +kernel

/-- C51: bounds in order -/
example : ∀ l ∈ (some 0 : Option ℚ), ∀ u ∈ (some 15 : Option ℚ), l ≤ u := by simp

/-- C52: names to change and to drop are there -/
example : hasColumn plainData "quantity" ∧ hasColumn plainData "price" :=
  ⟨⟨_, List.mem_cons_self⟩, ⟨_, List.mem_cons_of_mem _ List.mem_cons_self⟩⟩

/-- C53: faults of one or two steps -/
def params : FaultParams := ⟨5, 1, 1, 3, none⟩

example : 0 ≤ params.downtimeMin ∧ Rect twoScenarios ∧
    twoScenarios.index = rangeIndex twoScenarios.index.length := by
  refine ⟨by decide, by unfold Rect; decide +kernel, by decide +kernel⟩

/-- two faults at the first step, in each scenario -/
example : (((PipeWorld.newFault g0 params : PyM (PipeWorld ℕ) ℕ) PipeWorld.empty).2.callStage g0 0
    (.multi twoScenarios, rand 1)).1.toOption =
    some ⟨rangeIndex 2, [((.num 0, "quantity"), [some 0, some 20]),
      ((.num 7, "quantity"), [some 20, some 40])]⟩ := by decide +kernel

/-- C54: a function that keeps the labels of rows -/
example : ∀ scn x (r : Rand ℕ) v r', faultScenario g0 params scn x r = (.ok v, r') → v.index = x.index := by
  intro scn x r v r' h
  obtain ⟨faults, _, _, hs⟩ := faultScenario_ok g0_lawful h
  exact (subtractQuantity_ok hs).1

/-- C66: a seeded fault -/
example : ({ params with seed := some 3 } : FaultParams).seed = some 3 ∧ (3 : ℤ) ≠ 0 := by decide

/-! ### C48 is false of the constructor -/

/-- `Rename(a="b")`, `Clip()`, `Drop("c")` -/
def hidden : PipeWorld ℕ := (((do
    let a ← PipeWorld.newRename [("a", "b")]
    let b ← PipeWorld.newClip none none
    let c ← PipeWorld.newDrop ["c"]
    PipeWorld.newList [a, b, c]) : PyM (PipeWorld ℕ) ℕ) PipeWorld.empty).2

/-- `Pipeline([Rename(a="b"), Clip(), Drop("c")])` -/
def hiddenBuilt : PipeWorld ℕ := (PipeWorld.newPipeline 0 hidden).2

theorem hidden_stages : hidden.stagesOf 0 =
    [⟨.restricted ["a"] 0, renameProcess [("a", "b")]⟩, ⟨.free, clipProcess none none⟩,
      ⟨.restricted ["c"] 1, dropProcess ["c"]⟩] := rfl

/-- data with the one column required -/
def dataA : Data := .plain ⟨rangeIndex 1, [("a", [some 1])]⟩

/-- The constructor accepts stages that keep their word, data with all columns required is accepted, and yet a
stage is refused its input: the check of the stage after a free one is skipped. -/
theorem C48_refuted : ¬ ∀ (w w' : PipeWorld ℕ) (l p : ℕ) (plug : Plug),
    PipeWorld.newPipeline l w = (.ok p, w') →
    (∀ s ∈ w.stagesOf l, (∃ v, Sees w.outs s.plug v) ∧ Honest w.outs s) →
    ((w.stagesOf l).map (·.plug)).Pairwise Apart →
    w'.pipes[p]? = some (plug, l) →
    ∀ d t, Labelled d t → (∀ n ∈ plug.inputs, hasColumn d n) →
    ∀ r, NeverRefused g0 w'.outs (w'.stagesOf l) t r := by
  intro h
  have := h hidden hiddenBuilt 0 0 (.restricted ["a"] 1) (by
      unfold hiddenBuilt
      rfl) (by
      rw [hidden_stages]
      intro s hs
      simp only [List.mem_cons, List.not_mem_nil, or_false] at hs
      rcases hs with rfl | rfl | rfl
      · exact ⟨⟨_, .restricted (out := ["b"]) rfl⟩, honest_rename (d := [("a", "b")]) (by decide +kernel) rfl⟩
      · exact ⟨⟨_, .free⟩, fun t r t' r' hp n => clipProcess_names (o := []) hp n⟩
      · exact ⟨⟨_, .restricted (out := []) rfl⟩, honest_drop rfl⟩) (by
      rw [hidden_stages]
      simp [Apart]) rfl dataA dataA.timeline (labelled_timeline _) (by
      intro n hn
      simp only [Plug.inputs, List.mem_singleton] at hn
      subst hn
      exact ⟨_, List.mem_cons_self⟩) (rand 0)
  have := this [⟨.restricted ["a"] 0, renameProcess [("a", "b")]⟩, ⟨.free, clipProcess none none⟩]
    ⟨.restricted ["c"] 1, dropProcess ["c"]⟩ [] rfl
    ⟨rangeIndex 1, [((.num 0, "b"), [some 1])]⟩ (rand 0) (.cons rfl (.cons rfl (.nil _ _))) "c"
    (by simp [Plug.inputs])
  obtain ⟨scn, v, hm⟩ := this
  simp at hm

/-- and calling that pipeline on that data raises -/
example : (hiddenBuilt.callPipe g0 0 (dataA, rand 0)).1.toOption = none := by decide +kernel

/-- C48_partial: a list of stages of the library that the theorem is about -/
example : ∃ l1 l2 l3, (session.stagesOf 0).map (·.plug) = l1 ++ l2 ++ l3 ∧ (∀ q ∈ l1, q = Plug.free) ∧
    (∀ q ∈ l2, q ≠ Plug.free) ∧ (∀ q ∈ l3, q = Plug.free) :=
  ⟨[], [.restricted ["quantity"] 0], [.free], rfl, by simp, by simp, by simp⟩

/-! ### C55 is false, and C48 is false for stages used again -/

/-- `first = Rename(a="quantity", b="c")`, `second = Rename(quantity="q")`, `third = Drop("c")`,
`Pipeline([first, second])` -/
def reused : PipeWorld ℕ := (((do
    let a ← PipeWorld.newRename [("a", "quantity"), ("b", "c")]
    let b ← PipeWorld.newRename [("quantity", "q")]
    let c ← PipeWorld.newDrop ["c"]
    let l ← PipeWorld.newList [a, b]
    let p ← PipeWorld.newPipeline l
    let _ ← PipeWorld.newList [b, c]
    pure p) : PyM (PipeWorld ℕ) ℕ) PipeWorld.empty).2

/-- the same session before the pipeline is built -/
def reusedBefore : PipeWorld ℕ := (((do
    let a ← PipeWorld.newRename [("a", "quantity"), ("b", "c")]
    let b ← PipeWorld.newRename [("quantity", "q")]
    let _ ← PipeWorld.newDrop ["c"]
    PipeWorld.newList [a, b]) : PyM (PipeWorld ℕ) ℕ) PipeWorld.empty).2

/-- Building a pipeline changes the outputs of its second stage. -/
theorem C55_refuted : ∃ (w w' : PipeWorld ℕ) (l p s : ℕ) (st : Stage ℕ),
    PipeWorld.newPipeline l w = (.ok p, w') ∧ w.stages[s]? = some st ∧ w'.stages[s]? = some st ∧
      st.plug.outputs w.outs = ["q"] ∧ st.plug.outputs w'.outs = ["q", "c"] :=
  ⟨reusedBefore, (PipeWorld.newPipeline 0 reusedBefore).2, 0, 0, 1, _, rfl, rfl, rfl, rfl, rfl⟩

/-- Adding a stage to a pipeline changes that pipeline: a pipeline that ran before, fails after. -/
theorem C55_add_refuted : ∃ (w w' : PipeWorld ℕ) (p s q : ℕ), PipeWorld.pipeAdd p s w = (.ok q, w') ∧
    (w.callPipe g0 p (plainData, rand 0)).1.toOption.isSome = true ∧
    (w.callPipe g0 p (plainData, rand 0)).1.toOption ≠ (w'.callPipe g0 p (plainData, rand 0)).1.toOption :=
  ⟨(PipeWorld.newDrop ["q"] session).2, (PipeWorld.pipeAdd 0 2 (PipeWorld.newDrop ["q"] session).2).2, 0, 2, 0, rfl,
    by decide +kernel, by decide +kernel⟩

/-- A stage used in a first pipeline makes a second pipeline accepted that lets a stage down: the second
pipeline starts with that stage and the data has the column it requires. -/
theorem C48_reuse_refuted : ∃ (w' : PipeWorld ℕ) (plug : Plug),
    PipeWorld.newPipeline 1 reused = (.ok 1, w') ∧ w'.pipes[1]? = some (plug, 1) ∧
    (∀ n ∈ plug.inputs, hasColumn plainData n) ∧
    (w'.callPipe g0 1 (plainData, rand 0)).1.toOption = none ∧
    -- while a new stage of the same kind makes the same pipeline refused
    (((do
      let b ← PipeWorld.newRename [("quantity", "q")]
      let c ← PipeWorld.newDrop ["c"]
      let l ← PipeWorld.newList [b, c]
      PipeWorld.newPipeline l) : PyM (PipeWorld ℕ) ℕ) PipeWorld.empty).1.toOption = none := by
  refine ⟨(PipeWorld.newPipeline 1 reused).2, .restricted ["quantity"] 2, rfl, rfl, ?_, by decide +kernel,
    by decide +kernel⟩
  intro n hn
  simp only [Plug.inputs, List.mem_singleton] at hn
  subst hn
  exact ⟨_, List.mem_cons_self⟩

/-! ### C50, C53, C54, C66 are false in general -/

/-- two scenarios with the same columns, name by name -/
def interleaved : Timeline :=
  ⟨rangeIndex 1, [((.num 0, "a"), [some 1]), ((.num 1, "a"), [some 2]), ((.num 0, "b"), [some 3]),
    ((.num 1, "b"), [some 4])]⟩

/-- On a frame with the same columns in every scenario, but not scenario by scenario, RepeatScenario(1) gives a
scenario 0 that is not the one there was: columns are mislabelled. -/
theorem C50_refuted : ∃ (t' : Timeline),
    (((PipeWorld.newRepeat 1 : PyM (PipeWorld ℕ) ℕ) PipeWorld.empty).2.callStage g0 0
      (.multi interleaved, rand 0)).1.toOption = some t' ∧
    (interleaved.sub (.num 0)).cols = [("a", [some 1]), ("b", [some 3])] ∧
    (interleaved.sub (.num 1)).cols = [("a", [some 2]), ("b", [some 4])] ∧
    (t'.sub (.num 0)).cols = [("a", [some 1]), ("b", [some 2])] :=
  ⟨⟨rangeIndex 1, [((.num 0, "a"), [some 1]), ((.num 0, "b"), [some 2]), ((.num 1, "a"), [some 3]),
    ((.num 1, "b"), [some 4])]⟩, by decide +kernel, by decide +kernel, by decide +kernel, by decide +kernel⟩

/-- the second column of `interleaved` (scenario 1, name `a`) becomes the one of scenario 0 and name `b` -/
example (w : PipeWorld ℕ) (r : Rand ℕ) : ∃ t', ((PipeWorld.newRepeat 1 w).2.callStage g0 w.stages.length (.multi interleaved, r)).1 = .ok t' ∧
    t'.cols[1]? = some ((.num 0, "b"), [some 2]) := by
  obtain ⟨t', h1, _, _, h2⟩ := (C50_columns g0 (w := w) (n := 1) rfl (.multi interleaved) r).2 (by decide +kernel)
  obtain ⟨name, col, h3, h4, h5⟩ := h2 1 (by decide +kernel)
  refine ⟨t', h1, h5.trans ?_⟩
  have e3 : interleaved.names[1 % interleaved.names.length]? = some "b" := by decide +kernel
  have e4 : interleaved.cols[1 % interleaved.cols.length]? = some ((.num 1, "a"), [some 2]) := by decide +kernel
  rw [e3] at h3; rw [e4] at h4
  cases h3; cases h4
  decide +kernel

/-- a quantity with rows labelled by dates -/
def dated : Timeline :=
  ⟨[.str "2020-01-01", .str "2020-01-02"], [((.num 0, "quantity"), [some 10, some 20])]⟩

/-- On data with rows labelled by dates, a fault of no loss loses all values. -/
theorem C53_refuted :
    (((PipeWorld.newFault g0 ⟨0, 0, 1, 2, none⟩ : PyM (PipeWorld ℕ) ℕ) PipeWorld.empty).2.callStage g0 0
      (.multi dated, rand 0)).1.toOption =
    some ⟨rangeIndex 2, [((.num 0, "quantity"), [none, none])]⟩ := by decide +kernel

/-- With a negative downtime, faults last until the end but as many steps. -/
theorem C53_negative_refuted :
    (((PipeWorld.newFault g0 ⟨5, 1, -1, 0, none⟩ : PyM (PipeWorld ℕ) ℕ) PipeWorld.empty).2.callStage g0 0
      (.multi ⟨rangeIndex 3, [((.num 0, "quantity"), [some 100, some 100, some 100])]⟩, rand 1)).1.toOption =
    some ⟨rangeIndex 3, [((.num 0, "quantity"), [some 85, some 85, some 100])]⟩ := by decide +kernel

/-- On data with rows labelled by dates, a stage that gives each scenario as it is gives NaN everywhere. -/
theorem C54_refuted :
    ((((PipeWorld.newRestricted ["quantity"] ["quantity"] (focusProcess fun _ x => PyM.pure x)) :
        PyM (PipeWorld ℕ) ℕ) PipeWorld.empty).2.callStage g0 0 (.multi dated, rand 0)).1.toOption =
    some ⟨rangeIndex 2, [((.num 0, "quantity"), [none, none])]⟩ := by decide +kernel

/-- With rows labelled 1, 2, ... values are moved by one step. -/
theorem C54_shift_refuted :
    ((((PipeWorld.newRestricted ["quantity"] ["quantity"] (focusProcess fun _ x => PyM.pure x)) :
        PyM (PipeWorld ℕ) ℕ) PipeWorld.empty).2.callStage g0 0
          (.multi ⟨[.num 1, .num 2], [((.num 0, "quantity"), [some 10, some 20])]⟩, rand 0)).1.toOption =
    some ⟨rangeIndex 2, [((.num 0, "quantity"), [none, some 10])]⟩ := by decide +kernel

/-- With seed 0, the result depends on what the operating system gives. -/
theorem C66_refuted : ∃ r1 r2 : Rand ℕ,
    (((PipeWorld.newFault g0 { params with seed := some 0 } : PyM (PipeWorld ℕ) ℕ) PipeWorld.empty).2.callStage g0 0
      (.multi twoScenarios, r1)).1.toOption ≠
    (((PipeWorld.newFault g0 { params with seed := some 0 } : PyM (PipeWorld ℕ) ℕ) PipeWorld.empty).2.callStage g0 0
      (.multi twoScenarios, r2)).1.toOption :=
  ⟨rand 0, rand 1, by decide +kernel⟩

/-! ### The theorems applied to concrete cases -/

theorem ok_of_toOption {α : Type} {x : Except PyErr α} {a : α} (h : x.toOption = some a) : x = .ok a := by
  cases x with
  | error e => cases h
  | ok b => cases h; rfl

/-- the data of the cases, with labels -/
theorem plain_labelled : Labelled plainData plainData.timeline := labelled_timeline _

theorem quantity_there : hasColumn plainData "quantity" := ⟨_, List.mem_cons_self⟩

theorem price_there : hasColumn plainData "price" := ⟨_, List.mem_cons_of_mem _ List.mem_cons_self⟩

example := C47 g0 session (p := 0) (plug := .restricted ["quantity"] 0) (l := 0) rfl plain_labelled (rand 0)
example := C47_fails g0 session (p := 0) (plug := .restricted ["quantity"] 0) (l := 0) rfl plain_labelled (rand 0)
example := C47_stage g0 session (s := 0) (st := ⟨.restricted ["quantity"] 0, renameProcess [("quantity", "q")]⟩) rfl plain_labelled (rand 0)
example := C49 (h := [["x", "y"], ["z"]]) (p := .restricted ["a"] 0) (q := .restricted ["x"] 1) (.restricted rfl) (.restricted rfl)
example := C49_refused (PipeWorld.newDrop ["q"] session).2 (p := 0) (s := 2) (plug := .restricted ["quantity"] 0) (l := 0)
  (st := ⟨.restricted ["q"] 1, dropProcess ["q"]⟩) rfl rfl (.restricted rfl) (.restricted rfl)
example := C49_stages (PipeWorld.newDrop ["c"] session).2 (x := 0) (y := 2) (sx := ⟨.restricted ["quantity"] 0, renameProcess [("quantity", "q")]⟩)
  (sy := ⟨.restricted ["c"] 1, dropProcess ["c"]⟩) rfl rfl (.restricted rfl) (.restricted rfl)
example := C56_plain_partial g0 session (p := 0) (by decide +kernel) ⟨rangeIndex 1, [("price", [some 1])]⟩ (rand 0)
example := C51 g0 (w := session) (lower := some 0) (upper := some 15) (by simp) rfl plain_labelled (rand 0)
example := C51_value (lower := some 0) (upper := some 15) (by simp) (.above (x := 20) rfl (by norm_num))
example := C51_twice g0 (w := PipeWorld.empty) (lower := some 0) (upper := some 15) (by simp) rfl (d := plainData) (rand 0) (rand 3)
  (t' := ⟨rangeIndex 3, [((.num 0, "quantity"), [some 10, some 15, none]), ((.num 0, "price"), [some 1, some 2, some 3])]⟩)
  (ok_of_toOption (by decide +kernel))
example := C52_rename g0 (w := session) (names := [("quantity", "q"), ("price", "p")]) (by decide) rfl plain_labelled (by
  intro n m h
  simp only [List.mem_cons, Prod.mk.injEq, List.not_mem_nil, or_false] at h
  rcases h with ⟨rfl, rfl⟩ | ⟨rfl, rfl⟩
  exacts [quantity_there, price_there]) (rand 0)
example := C52_to_shuffler g0 (w := session) (name := "price") rfl plain_labelled price_there (rand 0)
example := C52_drop g0 (w := session) (names := ["price"]) rfl plain_labelled (by
  intro n h
  rw [List.mem_singleton] at h
  subst h
  exact price_there) (rand 0)

theorem two_regular : Regular [.num 0, .num 7] ["quantity", "price"]
    (fun s n => if s = .num 0 then (if n = "quantity" then [some 10, some 20] else [some 1, some 2])
      else (if n = "quantity" then [some 30, some 40] else [some 3, some 4])) twoScenarios :=
  ⟨by decide +kernel, by decide +kernel, by simp, by decide +kernel⟩

example := C50_partial g0 (w := session) (n := 2) rfl (.multi twoScenarios) two_regular (rand 0)

/-- a session with faults -/
def faulty : PipeWorld ℕ := ((PipeWorld.newFault g0 params : PyM (PipeWorld ℕ) ℕ) PipeWorld.empty).2

/-- two faults at the first step, in each scenario -/
def damaged : Timeline :=
  ⟨rangeIndex 2, [((.num 0, "quantity"), [some 0, some 20]), ((.num 7, "quantity"), [some 20, some 40])]⟩

theorem faulty_damaged : (faulty.callStage g0 0 (.multi twoScenarios, rand 1)).1 = .ok damaged := ok_of_toOption (by decide +kernel)

example := C54_partial g0 faulty (s := 0) (i := ["quantity"]) (o := 0) (f := faultScenario g0 params) rfl
  (fun scn x r v r' h => by
    obtain ⟨faults, _, _, hs⟩ := faultScenario_ok g0_lawful h
    exact (subtractQuantity_ok hs).1)
  (.multi twoScenarios) (by decide +kernel) (rand 1) faulty_damaged

/-- a stage that keeps the prices of each scenario -/
def priced : PipeWorld ℕ := ((PipeWorld.newRestricted ["price"] ["price"] (focusProcess fun _ x => PyM.lift
  (.ok ⟨x.index, x.cols.filter fun c => c.1 = "price"⟩)) : PyM (PipeWorld ℕ) ℕ) PipeWorld.empty).2

/-- one scenario less -/
def oneScenario : Timeline := ⟨rangeIndex 2, [((.num 7, "quantity"), [some 30, some 40]), ((.num 7, "price"), [some 3, some 4])]⟩

/-- the prices of scenario 7 do not depend on the presence of scenario 0 -/
example := C54_independent g0 priced (s := 0) (i := ["price"]) (o := 0)
  (f := fun _ x => .ok ⟨x.index, x.cols.filter fun c => c.1 = "price"⟩) rfl (.multi twoScenarios) (.multi oneScenario) (rand 0) (rand 5)
  (t1' := ⟨rangeIndex 2, [((.num 0, "price"), [some 1, some 2]), ((.num 7, "price"), [some 3, some 4])]⟩)
  (t2' := ⟨rangeIndex 2, [((.num 7, "price"), [some 3, some 4])]⟩)
  (ok_of_toOption (by decide +kernel)) (ok_of_toOption (by decide +kernel)) (scn := .num 7) (by decide +kernel) (by decide +kernel)
  (by decide +kernel)

theorem two_rect : Rect twoScenarios := by unfold Rect; decide +kernel

example := C53_any_partial g0 g0_lawful faulty (p := params) (s := 0) (o := 0) rfl (by decide +kernel) (.multi twoScenarios)
  (by decide +kernel) two_rect (rand 1) faulty_damaged
example := C53_passing_partial g0 g0_lawful faulty (p := params) (s := 0) (o := 0) rfl (by decide +kernel) (by decide) (.multi twoScenarios)
  (by decide +kernel) two_rect (rand 1) faulty_damaged
example := C53_partial g0 g0_lawful (w := PipeWorld.empty) (w' := faulty) (p := params) (s := 0) rfl (by decide) (.multi twoScenarios)
  (by decide +kernel) two_rect (rand 1) faulty_damaged
example := C66_partial g0 (w := PipeWorld.empty) (p := { params with seed := some 3 }) (z := 3) rfl rfl (by decide) (.multi twoScenarios)
  (rand 0) (rand 1)

/-- `Rename(a="b")` then `Clip(0, 15)`, before the pipeline is built -/
def ready : PipeWorld ℕ := (((do
    let a ← PipeWorld.newRename [("quantity", "q")]
    let b ← PipeWorld.newClip (some 0) (some 15)
    let _ ← PipeWorld.newDrop ["q"]
    PipeWorld.newList [a, b]) : PyM (PipeWorld ℕ) ℕ) PipeWorld.empty).2

/-- the rename stage of it -/
def toQ : Stage ℕ := ⟨.restricted ["quantity"] 0, renameProcess [("quantity", "q")]⟩

/-- the clip stage of it -/
def toFifteen : Stage ℕ := ⟨.free, clipProcess (some 0) (some 15)⟩

/-- the drop stage of it -/
def withoutQ : Stage ℕ := ⟨.restricted ["q"] 1, dropProcess ["q"]⟩

theorem toQ_honest : Honest ready.outs toQ := honest_rename (d := [("quantity", "q")]) (by decide +kernel) rfl

theorem toFifteen_honest : Honest ready.outs toFifteen := fun _ _ _ _ hp n => clipProcess_names (o := []) hp n

theorem withoutQ_honest : Honest ready.outs withoutQ := honest_drop rfl

theorem ready_stages : ready.stagesOf 0 = [toQ, toFifteen] := rfl

example := C48_partial g0 (w := ready) (l := 0) (p := 0) rfl (by
    rw [ready_stages]
    intro s hs
    simp only [List.mem_cons, List.not_mem_nil, or_false] at hs
    rcases hs with rfl | rfl
    · exact ⟨_, .restricted (out := ["q"]) rfl⟩
    · exact ⟨_, .free⟩) (by
    rw [ready_stages]
    intro s hs
    simp only [List.mem_cons, List.not_mem_nil, or_false] at hs
    rcases hs with rfl | rfl
    exacts [toQ_honest, toFifteen_honest]) (by
    rw [ready_stages]
    simp [Apart, toQ, toFifteen])
  ⟨[], [.restricted ["quantity"] 0], [.free], rfl, by simp, by simp, by simp⟩

/-- a pipeline of the rename stage alone -/
theorem alone : ∃ p w', ((do let l ← PipeWorld.newList [0]; PipeWorld.newPipeline l) : PyM (PipeWorld ℕ) ℕ) ready = (.ok p, w') ∧
    Trusty g0 w' p [toQ] ∧ w'.stages = ready.stages ∧ w'.outs = ready.outs :=
  C48_one g0 (w := ready) (s := 0) (st := toQ) rfl ⟨_, .restricted (out := ["q"]) rfl⟩ toQ_honest

/-- then the stage that drops the column is added to it -/
example : ∃ p w w', PipeWorld.pipeAdd p 2 w = (.ok p, w') ∧ Trusty g0 w' p [toQ, withoutQ] := by
  obtain ⟨p, w, h, ht, hs, ho⟩ := alone
  have ht' := ht
  obtain ⟨plug, l, v, hp, -⟩ := ht
  have hh : (((do let l ← PipeWorld.newList [0]; PipeWorld.newPipeline l) : PyM (PipeWorld ℕ) ℕ) ready) = (.ok p, w) := h
  have e : ∃ w', (((do let l ← PipeWorld.newList [0]; PipeWorld.newPipeline l) : PyM (PipeWorld ℕ) ℕ) ready) = (.ok 0, w') ∧
      (PipeWorld.pipeAdd 0 2 w').1 = .ok 0 := ⟨_, rfl, rfl⟩
  obtain ⟨w0, e1, e2⟩ := e
  rw [hh] at e1
  cases e1
  have ha : PipeWorld.pipeAdd 0 2 w = (.ok 0, (PipeWorld.pipeAdd 0 2 w).2) := by rw [← e2]
  refine ⟨0, w, _, ha, ?_⟩
  have := C48_add g0 ht' (s := 2) (st := withoutQ) (by rw [hs]; rfl) ⟨_, .restricted (out := []) (by rw [ho]; rfl)⟩
    (by rw [ho]; exact withoutQ_honest) (by intro x hx; rw [List.mem_singleton] at hx; subst hx; simp [Apart, toQ, withoutQ]) ha
  exact this.2.1

example : ∃ p w w', addAll p [1, 2] w = (.ok p, w') ∧ Trusty g0 w' p [toQ, toFifteen, withoutQ] := by
  obtain ⟨p, w, h, ht, hs, ho⟩ := alone
  have e : ∃ w', (((do let l ← PipeWorld.newList [0]; PipeWorld.newPipeline l) : PyM (PipeWorld ℕ) ℕ) ready) = (.ok 0, w') ∧
      (addAll 0 [1, 2] w').1 = .ok 0 := ⟨_, rfl, rfl⟩
  obtain ⟨w0, e1, e2⟩ := e
  rw [show (((do let l ← PipeWorld.newList [0]; PipeWorld.newPipeline l) : PyM (PipeWorld ℕ) ℕ) ready) = (.ok p, w) from h] at e1
  cases e1
  have ha : addAll 0 [1, 2] w = (.ok 0, (addAll 0 [1, 2] w).2) := by rw [← e2]
  refine ⟨0, w, _, ha, ?_⟩
  have hm : List.Forall₂ (fun s st => w.stages[s]? = some st) [1, 2] [toFifteen, withoutQ] := by
    rw [hs]; exact .cons rfl (.cons rfl .nil)
  refine C48_added g0 ht hm ?_ ?_ (by simp [Apart, toQ, toFifteen, withoutQ]) ha
  · rw [ho]
    intro st hst
    simp only [List.mem_cons, List.not_mem_nil, or_false] at hst
    rcases hst with rfl | rfl
    · exact ⟨_, .free⟩
    · exact ⟨_, .restricted (out := []) rfl⟩
  · rw [ho]
    intro st hst
    simp only [List.mem_cons, List.not_mem_nil, or_false] at hst
    rcases hst with rfl | rfl
    exacts [toFifteen_honest, withoutQ_honest]

example : ∃ (p : ℕ) (w : PipeWorld ℕ) (plug : Plug) (l : ℕ), w.pipes[p]? = some (plug, l) ∧ w.stagesOf l = [toQ] := by
  obtain ⟨p, w, _, ht, _⟩ := alone
  obtain ⟨plug, l, h1, h2, _⟩ := C48_run g0 ht
  exact ⟨p, w, plug, l, h1, h2⟩
example := (C48_library g0 ready).2.1 [("price", "p")] (by decide) _ _ rfl
example := C55_partial (w := ready) (l := 0) rfl
example := C55_one_partial (w := ready) (l := 0) rfl (by decide +kernel)
example := C55_add_partial (w := (PipeWorld.newDrop ["q"] session).2) (p := 0) (s := 2) rfl

end Hadar.Props
