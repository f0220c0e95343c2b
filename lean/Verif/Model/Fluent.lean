import Verif.Model.Study

/-!
# `hadar/optimizer/domain/input.py` 310-317, 451-698: the fluent builder

`NetworkFluentAPISelector` and `NodeFluentAPISelector` objects hold a reference to a selector
`dict` that several of them share. The heap of these dicts is modelled explicitly: a selector object
is a reference (index) into the heap.
-/

namespace Hadar

/-- A selector dict: its `"network"` and `"node"` entries. -/
structure Sel where
  network : Option String
  node : Option String
  deriving DecidableEq, Repr

/-- The study under construction and all selector dicts created so far. -/
structure World where
  study : Study
  heap : List Sel
  deriving DecidableEq, Repr

/-- What a builder call returns: the study itself, or a selector object with its dict. -/
inductive Handle where
  | study
  | net (ref : ℕ)
  | node (ref : ℕ)
  deriving DecidableEq, Repr

/-- A call of the public building API. `ref` is the selector dict of the object it is called on. -/
inductive Call where
  | studyNetwork (name : String)
  | studyAddNetwork (name : String)
  | studyAddNode (network node : String)
  | studyAddLink (network src dest : String) (cost quantity : Raw)
  | netNode (ref : ℕ) (name : String)
  | netLink (ref : ℕ) (src dest : String) (cost quantity : Raw)
  | netNetwork (ref : ℕ) (name : String)
  | netConverter (ref : ℕ) (name toNetwork toNode : String) (max cost : Raw)
  | nodeConsumption (ref : ℕ) (name : String) (cost quantity : Raw)
  | nodeProduction (ref : ℕ) (name : String) (cost quantity : Raw)
  | nodeStorage (ref : ℕ) (args : Study.StorageArgs)
  | nodeNode (ref : ℕ) (name : String)
  | nodeLink (ref : ℕ) (src dest : String) (cost quantity : Raw)
  | nodeNetwork (ref : ℕ) (name : String)
  | nodeConverter (ref : ℕ) (name toNetwork toNode : String) (max cost : Raw)
  | nodeToConverter (ref : ℕ) (name : String) (ratio : Raw)

namespace World

/-- run a `Study` method on the study of the world -/
def onStudy {α : Type} (m : PyM Study α) : PyM World α := fun w =>
  match m w.study with
  | (r, s) => (r, { w with study := s })

/-- `self.selector` (the reference always exists in Python; otherwise `AttributeError`) -/
def selOf (ref : ℕ) : PyM World Sel := fun w =>
  match w.heap[ref]? with
  | some s => (.ok s, w)
  | none => (.error .attributeError, w)

/-- `self.selector["network"]` -/
def selNetwork (ref : ℕ) : PyM World String := do
  let s ← selOf ref
  match s.network with
  | some n => pure n
  | none => PyM.raise .keyError

/-- `self.selector["node"]` -/
def selNode (ref : ℕ) : PyM World String := do
  let s ← selOf ref
  match s.node with
  | some n => pure n
  | none => PyM.raise .keyError

/-- a new selector dict -/
def alloc (s : Sel) : PyM World ℕ := fun w =>
  (.ok w.heap.length, { w with heap := w.heap ++ [s] })

/-- `Study.network` (input.py 310-317) and `NetworkFluentAPISelector.network` (497-505) -/
def network (name : String) : PyM World Handle := do
  onStudy (Study.addNetwork name)
  let r ← alloc ⟨some name, none⟩
  pure (.net r)

/-- `NetworkFluentAPISelector.node` (input.py 460-469): the shared dict is modified first. -/
def node (ref : ℕ) (name : String) : PyM World Handle := do
  let _ ← selOf ref
  PyM.modify (fun w => { w with heap := w.heap.modify ref (fun s => { s with node := some name }) })
  let net ← selNetwork ref
  onStudy (Study.addNode net name)
  pure (.node ref)

/-- `NetworkFluentAPISelector.link` (input.py 471-495), `NodeFluentAPISelector.link` (629-642) -/
def link (ref : ℕ) (src dest : String) (cost quantity : Raw) : PyM World Handle := do
  let net ← selNetwork ref
  onStudy (Study.addLink net src dest cost quantity)
  pure (.net ref)

/-- `NetworkFluentAPISelector.converter` (input.py 507-529), `NodeFluentAPISelector.converter`
(653-673): the returned object has an empty selector dict. -/
def converter (name toNetwork toNode : String) (max cost : Raw) : PyM World Handle := do
  onStudy (Study.addConverter name)
  onStudy (Study.setConverterDest name toNetwork toNode cost max)
  let r ← alloc ⟨none, none⟩
  pure (.net r)

/-- One call of the building API. -/
def step : Call → PyM World Handle
  | .studyNetwork name => network name
  -- add_network returns nothing (355-357); add_node neither (359-363); add_link returns the study
  | .studyAddNetwork name => do onStudy (Study.addNetwork name); pure .study
  | .studyAddNode net node => do onStudy (Study.addNode net node); pure .study
  | .studyAddLink net src dest cost quantity => do
      onStudy (Study.addLink net src dest cost quantity); pure .study
  | .netNode ref name => node ref name
  | .netLink ref src dest cost quantity => link ref src dest cost quantity
  | .netNetwork _ name => network name
  | .netConverter _ name net nd max cost => converter name net nd max cost
  -- input.py 549-565
  | .nodeConsumption ref name cost quantity => do
      let net ← selNetwork ref
      let nd ← selNode ref
      onStudy (Study.addConsumption net nd name cost quantity)
      pure (.node ref)
  -- input.py 567-583
  | .nodeProduction ref name cost quantity => do
      let net ← selNetwork ref
      let nd ← selNode ref
      onStudy (Study.addProduction net nd name cost quantity)
      pure (.node ref)
  -- input.py 585-618
  | .nodeStorage ref args => do
      let net ← selNetwork ref
      let nd ← selNode ref
      onStudy (Study.addStorage net nd args)
      pure (.node ref)
  -- input.py 620-627
  | .nodeNode ref name => node ref name
  | .nodeLink ref src dest cost quantity => link ref src dest cost quantity
  -- input.py 644-651
  | .nodeNetwork _ name => network name
  | .nodeConverter _ name net nd max cost => converter name net nd max cost
  -- input.py 675-690
  | .nodeToConverter ref name ratio => do
      onStudy (Study.addConverter name)
      let net ← selNetwork ref
      let nd ← selNode ref
      onStudy (Study.addConverterSrc name net nd ratio)
      pure (.node ref)

/-- The world left by a call, whether it returned or raised. -/
def after (w : World) (c : Call) : World := (step c w).2

/-- The world left by a sequence of calls (a program that catches all exceptions). -/
def run (w : World) (cs : List Call) : World := cs.foldl after w

/-- A fresh study. -/
def start (horizon nbScn : ℕ) : World := ⟨Study.init horizon nbScn none, []⟩

end World

end Hadar
