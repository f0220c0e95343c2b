import Verif.Conform.Chain
import Verif.Model.Shuffler

/-!
# `tests/workflow` on the model

Left out: `TestFault` and half of `TestPipeline` of `test_integration.py`, which are about frequencies of random numbers
(that `Clip(lower=80)` leaves nothing below 80 is C51).
-/

namespace Hadar.Conform

open Hadar

/-- a generator; the stages of the tests do not draw -/
private def still : Rng Unit := ⟨fun _ => (), fun _ _ s => (0, s), fun low _ n s => (List.replicate n low, s)⟩

private def rand0 : Rand Unit := ⟨(), fun _ => 0⟩

private def vals (l : List ℚ) : List Val := l.map some

/-- `pd.DataFrame({"a": [..], ..})` -/
private def plain (rows : ℕ) (cols : List (String × List ℚ)) : Data :=
  .plain ⟨rangeIndex rows, cols.map fun c => (c.1, vals c.2)⟩

/-- `pd.DataFrame({(0, "a"): [..], ..})` -/
private def multi (rows : ℕ) (cols : List ((ℕ × String) × List ℚ)) : Timeline :=
  ⟨rangeIndex rows, cols.map fun c => ((.num c.1.1, c.1.2), vals c.2)⟩

/-- a program that makes objects, then a test on what it returns and on the session -/
private def session {α : Type} (m : PyM (PipeWorld Unit) α) (test : α → PipeWorld Unit → Bool) : Bool :=
  match m PipeWorld.empty with
  | (.ok a, w) => test a w
  | (.error _, _) => false

/-- a program that raises -/
private def raises {α : Type} (m : PyM (PipeWorld Unit) α) (e : PyErr) : Bool :=
  match m PipeWorld.empty with
  | (.error e', _) => decide (e' = e)
  | (.ok _, _) => false

/-- `o = pipe(i)` -/
private def runPipe (w : PipeWorld Unit) (p : ℕ) (i : Data) : Except PyErr Timeline := (w.callPipe still p (i, rand0)).1

/-- `o = stage(i)` -/
private def runStage (w : PipeWorld Unit) (s : ℕ) (i : Data) : Except PyErr Timeline := (w.callStage still s (i, rand0)).1

/-- inputs and outputs of the plug of a pipeline -/
private def plugOf (w : PipeWorld Unit) (p : ℕ) : List String × List String :=
  match w.pipes[p]? with
  | some (plug, _) => (plug.inputs, plug.outputs w.outs)
  | none => ([], [])

/-! ### The stages written by the tests -/

/-- `Double` -/
private def newDouble : PyM (PipeWorld Unit) ℕ :=
  PipeWorld.newFree fun _ t => PyM.pure { t with cols := t.cols.map fun c => (c.1, c.2.map fun v => v.map (· * 2)) }

/-- `Max9` -/
private def newMax9 : PyM (PipeWorld Unit) ℕ := PipeWorld.newFree (clipProcess none (some 9))

private def zipVals (f : ℚ → ℚ → ℚ) (a b : List Val) : List Val :=
  List.zipWith (fun x y => match x, y with
    | some x, some y => some (f x y)
    | _, _ => none) a b

/-- `Divide` -/
private def newDivide : PyM (PipeWorld Unit) ℕ :=
  PipeWorld.newRestricted ["a", "b"] ["d", "r"] (focusProcess fun _ s =>
    let a := (Dict.get? s.cols "a").getD []
    let b := (Dict.get? s.cols "b").getD []
    let d := zipVals (fun x y => (x / y).floor) a b
    let r := zipVals (· - ·) a (zipVals (· * ·) b d)
    PyM.pure { s with cols := (s.cols ++ [("d", d), ("r", r)]).filter fun c => !decide (c.1 ∈ ["a", "b"]) })

/-- `Inverse` -/
private def newInverse : PyM (PipeWorld Unit) ℕ :=
  PipeWorld.newRestricted ["d"] ["d", "-d"] (focusProcess fun _ s =>
    PyM.pure { s with cols := s.cols ++ [("-d", ((Dict.get? s.cols "d").getD []).map fun v => v.map (- ·))] })

/-- `Wrong` -/
private def newWrong : PyM (PipeWorld Unit) ℕ := PipeWorld.newRestricted ["e"] ["e"] fun _ t => PyM.pure t

/-! ### `TestFreePlug`, `TestRestrictedPlug` -/

private def plugIs (i o : List String) (r : Except PyErr Plug × Heap) : Bool :=
  match r with
  | (.ok p, h) => decide (p.inputs = i) && decide (p.outputs h = o)
  | _ => false

-- test_linkable_to, test_join_to_fre, test_join_to_restricted
example : Plug.linkable [] .free .free = true := by decide +kernel
example : (Plug.free.add .free []).1 = .ok .free := rfl
example : plugIs ["a", "b"] ["c", "d"] (Plug.free.add (.restricted ["a", "b"] 0) [["c", "d"]]) = true := by decide +kernel
-- test_linkable_to_free, test_linkable_to_restricted_ok, test_linkable_to_restricted_wrong
example : Plug.linkable [["b"]] (.restricted ["a"] 0) .free = true := by decide +kernel
example : Plug.linkable [["b", "c", "d"], ["e"]] (.restricted ["a"] 0) (.restricted ["b", "c"] 1) = true := by decide +kernel
example : Plug.linkable [["b", "c", "d"], ["e"]] (.restricted ["a"] 0) (.restricted ["b", "c", "f"] 1) = false := by decide +kernel
-- test_join_to_free, test_join_to_restricted
example : plugIs ["a"] ["b"] ((Plug.restricted ["a"] 0).add .free [["b"]]) = true := by decide +kernel
example : plugIs ["a"] ["e", "d"] ((Plug.restricted ["a"] 0).add (.restricted ["b", "c"] 1) [["b", "c", "d"], ["e"]]) = true := by
  decide +kernel

/-! ### `TestPipeline` -/

-- test_compute
example : session (do
    let a ← newDouble
    let b ← newDouble
    let l ← PipeWorld.newList [a, b]
    PipeWorld.newPipeline l) (fun p w =>
      decide (runPipe w p (plain 3 [("a", [1, 2, 3])]) = .ok (multi 3 [((0, "a"), [4, 8, 12])]))) = true := by decide +kernel

-- test_add
example : session (do
    let a ← newDouble
    let b ← newDouble
    let l ← PipeWorld.newList [a, b]
    let p ← PipeWorld.newPipeline l
    let c ← newDivide
    PipeWorld.pipeAdd p c) (fun p w =>
      decide (runPipe w p (plain 3 [("a", [1, 2, 3]), ("b", [1, 2, 3])]) =
        .ok (multi 3 [((0, "d"), [1, 1, 1]), ((0, "r"), [0, 0, 0])])) &&
      (match w.pipes[p]? with
        | some (.restricted _ _, l) => decide ((w.stagesOf l).length = 3)
        | _ => false)) = true := by decide +kernel

-- test_link_pipeline_free_to_free
example : session (do
    let a ← newDouble
    let b ← newMax9
    PipeWorld.stageAdd a b) (fun p w =>
      decide (runPipe w p (plain 3 [("a", [1, 2, 3]), ("b", [4, 5, 6])]) =
        .ok (multi 3 [((0, "a"), [2, 4, 6]), ((0, "b"), [8, 9, 9])])) &&
      decide (plugOf w p = ([], []))) = true := by decide +kernel

-- test_link_pipeline_free_to_restricted
example : session (do
    let a ← newDouble
    let b ← newDivide
    PipeWorld.stageAdd a b) (fun p w =>
      decide (runPipe w p (plain 3 [("a", [10, 20, 32]), ("b", [4, 5, 6])]) =
        .ok (multi 3 [((0, "d"), [2, 4, 5]), ((0, "r"), [4, 0, 4])])) &&
      decide (plugOf w p = (["a", "b"], ["d", "r"]))) = true := by decide +kernel

-- test_link_pipeline_restricted_to_free
example : session (do
    let a ← newDivide
    let b ← newDouble
    PipeWorld.stageAdd a b) (fun p w =>
      decide (runPipe w p (plain 3 [("a", [10, 20, 32]), ("b", [4, 5, 6])]) =
        .ok (multi 3 [((0, "d"), [4, 8, 10]), ((0, "r"), [4, 0, 4])])) &&
      decide (plugOf w p = (["a", "b"], ["d", "r"]))) = true := by decide +kernel

-- test_link_pipeline_restricted_to_restricted
example : session (do
    let a ← newDivide
    let b ← newInverse
    PipeWorld.stageAdd a b) (fun p w =>
      decide (runPipe w p (plain 3 [("a", [10, 20, 32]), ("b", [4, 5, 6])]) =
        .ok (multi 3 [((0, "d"), [2, 4, 5]), ((0, "-d"), [-2, -4, -5]), ((0, "r"), [2, 0, 2])])) &&
      decide (plugOf w p = (["a", "b"], ["d", "-d", "r"]))) = true := by decide +kernel

-- test_wrong_link
example : raises (do
    let a ← newDivide
    let b ← newWrong
    PipeWorld.stageAdd a b) .valueError = true := by decide +kernel

/-! ### `TestStage`, `TestFocusPipeline` -/

-- test_compute
example : session newDouble (fun s w => decide (runStage w s (.multi (multi 3 [((0, "a"), [1, 2, 3]), ((0, "b"), [4, 5, 6]),
      ((1, "a"), [10, 20, 30]), ((1, "b"), [40, 50, 60])])) = .ok (multi 3 [((0, "a"), [2, 4, 6]), ((0, "b"), [8, 10, 12]),
      ((1, "a"), [20, 40, 60]), ((1, "b"), [80, 100, 120])]))) = true := by decide +kernel
-- test_wrong_compute
example : session newInverse (fun s w => decide (runStage w s (plain 3 [("a", [1, 2, 3]), ("b", [4, 5, 6])]) =
    .error .valueError)) = true := by decide +kernel
-- test_standardize_column
example : (plain 3 [("a", [1, 2, 3])]).timeline = multi 3 [((0, "a"), [1, 2, 3])] := by decide +kernel
-- test_build_multi_index
example : buildMultiIndex [.num 1, .num 2, .num 3] ["a", "b"] =
    [(.num 1, "a"), (.num 1, "b"), (.num 2, "a"), (.num 2, "b"), (.num 3, "a"), (.num 3, "b")] := by decide +kernel
-- test_compute
example : session newDivide (fun s w => decide (runStage w s (.multi (multi 3 [((0, "b"), [1, 2, 3]), ((0, "a"), [4, 5, 6]),
      ((1, "b"), [10, 20, 30]), ((1, "a"), [40, 50, 60])])) = .ok (multi 3 [((0, "d"), [4, 2, 2]), ((0, "r"), [0, 1, 0]),
      ((1, "d"), [4, 2, 2]), ((1, "r"), [0, 10, 0])]))) = true := by decide +kernel

/-! ### `TestClip`, `TestRename`, `TestDrop`, `TestRepeat` -/

private def ab : List (String × List ℚ) := [("a", [12, 54, 87, 12]), ("b", [98, 23, 65, 4])]

private def repeated (n : ℕ) : Timeline := multi 4 ((List.range n).flatMap fun k => ab.map fun c => ((k, c.1), c.2))

example : session (PipeWorld.newClip (some 10) (some 50)) (fun s w => decide (runStage w s (plain 4 ab) =
    .ok (multi 4 [((0, "a"), [12, 50, 50, 12]), ((0, "b"), [50, 23, 50, 10])]))) = true := by decide +kernel
example : session (PipeWorld.newRename [("a", "alpha")]) (fun s w => decide (runStage w s (plain 4 ab) =
    .ok (multi 4 [((0, "alpha"), [12, 54, 87, 12]), ((0, "b"), [98, 23, 65, 4])]))) = true := by decide +kernel
example : session (PipeWorld.newDrop ["b"]) (fun s w => decide (runStage w s (plain 4 ab) =
    .ok (multi 4 [((0, "a"), [12, 54, 87, 12])]))) = true := by decide +kernel
example : session (PipeWorld.newRepeat 2) (fun s w => decide (runStage w s (plain 4 ab) = .ok (repeated 2)) &&
    decide (runStage w s (.multi (repeated 2)) = .ok (repeated 4))) = true := by decide +kernel

/-! ### `test_shuffler.py` -/

/-- `range_sampler` -/
private def rangeSampler : Sampler Unit := fun low high size =>
  PyM.pure ((List.range size).map fun i : ℕ => low + (i : ℤ) % (high - low))

private def nats (l : List (List ℚ)) : Rows := l.map vals

-- TestTimeline
example : (Source.sample still PipeWorld.empty rangeSampler 7 (⟨some (nats [[0, 1, 2], [3, 4, 5], [6, 7, 8], [9, 10, 11], [12, 13, 14]]),
      .raw []⟩, rand0)).1 =
    .ok (nats [[0, 1, 2], [3, 4, 5], [6, 7, 8], [9, 10, 11], [12, 13, 14], [0, 1, 2], [3, 4, 5]]) := by decide +kernel

-- TestTimelinePipeline: what the mock pipeline returns
example : toShufflerRows (multi 3 [((0, "to_shuffler"), [1, 2, 3]), ((0, "b"), [4, 5, 6]), ((1, "to_shuffler"), [10, 20, 30]),
    ((1, "b"), [40, 50, 60])]) = .ok (nats [[1, 2, 3], [10, 20, 30]]) := by decide +kernel

/-- the shuffler of `TestShuffler`, then three scenarios, with one worker that takes one item after the other -/
private def shuffled (w : PipeWorld Unit) (p : ℕ) : Except PyErr (Dict String Rows) :=
  let s := (Shuffler.addData "solar" (nats [[1, 2, 3], [5, 6, 7]]) []).2
  match Shuffler.addPipeline w "load" p (.multi (multi 3 [((0, "a"), [3, 4, 5]), ((1, "a"), [7, 8, 9])]), s) with
  | (.ok _, (_, s)) => Shuffler.shuffle still w rangeSampler (fun _ => rand0) 1 [0, 1] s 3
  | (.error e, _) => .error e

-- TestShuffler of `test_shuffler.py`: the mock pipeline returns the columns of the scenarios, renamed
example : session (do
    let a ← PipeWorld.newToShuffler "a"
    let l ← PipeWorld.newList [a]
    PipeWorld.newPipeline l) (fun p w => decide (shuffled w p =
      .ok [("solar", nats [[1, 2, 3], [5, 6, 7], [1, 2, 3]]), ("load", nats [[3, 4, 5], [7, 8, 9], [3, 4, 5]])])) = true := by
  decide +kernel

/-! ### `test_integration.py` -/

-- TestPipeline, the names of inputs, outputs, scenarios and columns (with fewer scenarios and time steps)
example : session (do
    let a ← PipeWorld.newRepeat 5
    let b ← PipeWorld.newRename [("data", "quantity")]
    let p ← PipeWorld.stageAdd a b
    let c ← PipeWorld.newFault still ⟨10, 1 / 10, 5, 10, none⟩
    let p ← PipeWorld.pipeAdd p c
    let d ← PipeWorld.newClip (some 80) none
    PipeWorld.pipeAdd p d) (fun p w => decide (plugOf w p = (["data"], ["quantity"])) &&
      (match runPipe w p (plain 3 [("data", [100, 100, 100])]) with
        | .ok o => decide (o.scenarios = rangeIndex 5) && decide (o.names = ["quantity"])
        | .error _ => false)) = true := by decide +kernel

-- TestShuffler
example : session (do
    let a ← PipeWorld.newRepeat 2
    let b ← PipeWorld.newToShuffler "a"
    PipeWorld.stageAdd a b) (fun p w => decide (shuffled w p =
      .ok [("solar", nats [[1, 2, 3], [5, 6, 7], [1, 2, 3]]), ("load", nats [[3, 4, 5], [7, 8, 9], [3, 4, 5]])])) = true := by
  decide +kernel

end Hadar.Conform
