import Verif.Proofs.Pool
import Verif.Spec.Clock

/-! # Measured times -/

namespace Hadar

open Spec

/-- a step that does not look at the benchmark -/
def Follows (b : Benchmark) (f : Result → Except PyErr Result) : Prop :=
  ∀ r : Result, f { r with benchmark := b } = (f r).map fun r' => { r' with benchmark := b }

theorem follows_foldlM {α : Type} {b : Benchmark} {f : Result → α → Except PyErr Result} (h : ∀ a, Follows b fun r => f r a) (l : List α) :
    Follows b fun r => l.foldlM f r := by
  induction l with
  | nil => intro r; rfl
  | cons a l ih =>
    intro r
    simp only [List.foldlM_cons]
    have := h a r
    simp only at this
    rw [this]
    cases f r a with
    | error e => rfl
    | ok r' => exact ih r'

theorem follows_error (b : Benchmark) (e : PyErr) : Follows b fun _ => .error e := fun _ => rfl

theorem follows_bind {α : Type} {b : Benchmark} (x : Except PyErr α) {f : α → Result → Except PyErr Result} (h : ∀ a, Follows b (f a)) :
    Follows b fun r => x >>= fun a => f a r := by
  intro r
  cases x with
  | error e => rfl
  | ok a => exact h a r

theorem follows_setNodeVar (b : Benchmark) (net node : String) (t scn : ℕ) (vars : LPNode ℚ) :
    Follows b fun r => OutputMapper.setNodeVar net node t scn vars r := by
  intro r
  unfold OutputMapper.setNodeVar
  simp only
  cases Dict.getE r.networks net with
  | error e => rfl
  | ok network =>
    simp only [bind, Except.bind]
    cases Dict.getE network.nodes node with
    | error e => rfl
    | ok out =>
      simp only
      cases OutputMapper.writeNode t scn vars out with
      | error e => rfl
      | ok out' => rfl

theorem follows_setConverterVar (b : Benchmark) (name : String) (t scn : ℕ) (vars : LPConverter ℚ) :
    Follows b fun r => OutputMapper.setConverterVar name t scn vars r := by
  intro r
  unfold OutputMapper.setConverterVar
  simp only
  cases Dict.getE r.converters name with
  | error e => rfl
  | ok out =>
    simp only [bind, Except.bind]
    cases OutputMapper.writeConv t scn vars out with
    | error e => rfl
    | ok out' => rfl

theorem follows_mapStep (b : Benchmark) (s : Study) (scn t : ℕ) (ts : LPTimeStep ℚ) : Follows b fun r => mapStep s scn t ts r := by
  intro r
  unfold mapStep
  have h1 := follows_foldlM (b := b) (f := fun r (p : String × InputNetwork) => p.2.nodes.foldlM (fun r q => do
      let net ← Dict.getE ts.networks p.1
      let vars ← Dict.getE net q.1
      OutputMapper.setNodeVar p.1 q.1 t scn vars r) r) (fun p => follows_foldlM (fun q =>
        follows_bind _ fun net => follows_bind _ fun vars => follows_setNodeVar b _ _ _ _ _) _) s.networks r
  have h2 := follows_foldlM (b := b) (f := fun r (p : String × Converter) => do
      let vars ← Dict.getE ts.converters p.1
      OutputMapper.setConverterVar p.1 t scn vars r) (fun p => follows_bind _ fun vars => follows_setConverterVar b _ _ _ _) s.converters
  simp only at h1 ⊢
  rw [h1]
  cases s.networks.foldlM (fun r (p : String × InputNetwork) => p.2.nodes.foldlM (fun r q => do
      let net ← Dict.getE ts.networks p.1
      let vars ← Dict.getE net q.1
      OutputMapper.setNodeVar p.1 q.1 t scn vars r) r) r with
  | error e => rfl
  | ok r' => exact h2 r'

theorem follows_mapScenario (b : Benchmark) (s : Study) (scn : ℕ) (vars : List (LPTimeStep ℚ)) : Follows b fun r => mapScenario s scn vars r := by
  unfold mapScenario
  refine follows_foldlM (fun t => ?_) _
  cases vars[t]? with
  | none => exact follows_error b _
  | some ts => exact follows_mapStep b s scn t ts

theorem follows_mapResults (b : Benchmark) (s : Study) (outs : List (List (LPTimeStep ℚ))) : Follows b fun r => mapResults s outs r := by
  unfold mapResults
  refine follows_foldlM (fun scn => ?_) _
  cases outs[scn]? with
  | none => exact follows_error b _
  | some vars => exact follows_mapScenario b s scn vars

/-- what one worker measures -/
def workerTimes (c : Clocks) (k : ℕ) : ℚ × ℚ := ((c.worker k).built - (c.worker k).start, (c.worker k).solved - (c.worker k).start)

theorem mapM_length {α β : Type} {f : α → Except PyErr β} {l : List α} {l' : List β} (h : l.mapM f = .ok l') : l'.length = l.length := by
  induction l generalizing l' with
  | nil => cases h; rfl
  | cons a l ih =>
    rw [List.mapM_cons] at h
    cases ha : f a with
    | error e => rw [ha] at h; cases h
    | ok b =>
      rw [ha] at h
      simp only [bind, Except.bind] at h
      cases hl : l.mapM f with
      | error e => rw [hl] at h; cases h
      | ok l2 =>
        rw [hl] at h
        cases h
        rw [List.length_cons, List.length_cons, ih hl]

theorem mapM_timed (solver : Solver) (s : Study) (c : Clocks) (l : List ℕ) :
    l.mapM (timedBatch solver s c) = (l.mapM (solveBatch solver s)).map fun vs => vs.zip (l.map (workerTimes c)) := by
  induction l with
  | nil => rfl
  | cons k l ih =>
    rw [List.mapM_cons, List.mapM_cons, ih]
    unfold timedBatch
    cases solveBatch solver s k with
    | error e => rfl
    | ok v =>
      simp only [bind, Except.bind, pure, Except.pure]
      cases l.mapM (solveBatch solver s) with
      | error e => rfl
      | ok vs => rfl

/-- one scenario in the loop without times -/
def resultOne (s : Study) (vs : List (List (LPTimeStep ℚ))) (r : Result) (scn : ℕ) : Except PyErr Result :=
  match vs[scn]? with
  | some vars => mapScenario s scn vars r
  | none => .error .indexError

theorem mapResults_eq (s : Study) (vs : List (List (LPTimeStep ℚ))) (r : Result) :
    mapResults s vs r = (List.range s.nbScn).foldlM (resultOne s vs) r := rfl

theorem collect_fold (s : Study) (vs : List (List (LPTimeStep ℚ))) (ts : List (ℚ × ℚ)) (hl : vs.length = ts.length)
    (l : List ℕ) (b : Benchmark) (r : Result) :
    l.foldlM (collectOne s (vs.zip ts)) (b, r) = (l.foldlM (resultOne s vs) r).map fun r' =>
      (⟨b.modeler ++ l.map fun k => (ts.getD k (0, 0)).1, b.solver ++ l.map fun k => (ts.getD k (0, 0)).2, b.mapper, b.total⟩, r') := by
  induction l generalizing b r with
  | nil => simp [pure, Except.pure, Except.map]
  | cons k l ih =>
    rw [List.foldlM_cons, List.foldlM_cons]
    by_cases hk : k < vs.length
    · have e1 : vs[k]? = some vs[k] := List.getElem?_eq_getElem hk
      have hk' : k < ts.length := hl ▸ hk
      have e2 : (vs.zip ts)[k]? = some (vs[k], ts[k]) := by
        rw [List.getElem?_eq_getElem (by simp [hk, hk']), List.getElem_zip]
      have e3 : ts.getD k (0, 0) = ts[k] := by simp [hk']
      have f1 : resultOne s vs r k = mapScenario s k vs[k] r := by rw [resultOne, e1]
      have f2 : collectOne s (vs.zip ts) (b, r) k = (mapScenario s k vs[k] r).map fun r' =>
          (⟨b.modeler ++ [ts[k].1], b.solver ++ [ts[k].2], b.mapper, b.total⟩, r') := by
        rw [collectOne, e2]
        simp only
        cases mapScenario s k vs[k] r <;> rfl
      rw [f1, f2]
      cases mapScenario s k vs[k] r with
      | error e => rfl
      | ok r' =>
        simp only [bind, Except.bind, Except.map]
        rw [ih, List.map_cons, List.map_cons, e3]
        simp only [List.append_assoc, List.singleton_append]
        rfl
    · have e1 : vs[k]? = none := List.getElem?_eq_none (by omega)
      have e2 : (vs.zip ts)[k]? = none := List.getElem?_eq_none (by simp; omega)
      have f1 : resultOne s vs r k = .error .indexError := by rw [resultOne, e1]
      have f2 : collectOne s (vs.zip ts) (b, r) k = .error .indexError := by rw [collectOne, e2]
      rw [f1, f2]
      rfl

/-- the benchmark of a run -/
def measured (c : Clocks) (n : ℕ) : Benchmark where
  modeler := (List.range n).map fun k => (workerTimes c k).1
  solver := (List.range n).map fun k => (workerTimes c k).2
  mapper := c.endMapper - c.finished
  total := c.endTotal - c.start

theorem measured_measures (c : Clocks) (n : ℕ) : Measures c n (measured c n) := by
  refine ⟨by simp [measured], by simp [measured], ?_, ?_, rfl, rfl⟩ <;> intro k hk <;> simp [measured, hk, workerTimes]

theorem timed_eq (c : Clocks) (solver : Solver) (s : Study) {size : ℕ} (hs : 0 < size) {order : List ℕ}
    (ho : order.Perm (List.range (Pool.nbChunks size s.nbScn))) :
    (solveLpTimed c size order solver s).toOption = (solveLp solver (measured c s.nbScn) s).toOption := by
  have ho' : order.Perm (List.range (Pool.nbChunks size (List.range s.nbScn).length)) := by
    simpa using ho
  have hm := mapM_timed solver s c (List.range s.nbScn)
  unfold solveLpTimed solveLp
  cases h : (List.range s.nbScn).mapM (solveBatch solver s) with
  | error e =>
    rw [h] at hm
    obtain ⟨e', h', _⟩ := Pool.map_error hs ho' hm
    rw [h']; rfl
  | ok vs =>
    rw [h] at hm
    rw [Pool.map_ok hs ho' hm]
    have hlen : vs.length = s.nbScn := by
      rw [mapM_length h, List.length_range]
    have hf := follows_mapResults (measured c s.nbScn) s vs (OutputMapper.init s Benchmark.new)
    have hi : ({ OutputMapper.init s Benchmark.new with benchmark := measured c s.nbScn } : Result) =
      OutputMapper.init s (measured c s.nbScn) := rfl
    simp only [hi] at hf
    simp only [bind, Except.bind]
    rw [hf, collect, collect_fold s vs _ (by simp [hlen]), mapResults_eq]
    cases (List.range s.nbScn).foldlM (resultOne s vs) (OutputMapper.init s Benchmark.new) with
    | error e => rfl
    | ok r =>
      simp only [Except.map, pure, Except.pure, Except.toOption, Benchmark.new, List.nil_append]
      congr 2
      unfold measured
      congr 1 <;> refine List.map_congr_left fun k hk => ?_ <;> simp [List.mem_range.mp hk]

end Hadar
