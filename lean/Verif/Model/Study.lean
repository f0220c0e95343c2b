import Verif.Model.Numeric

/-!
# `hadar/optimizer/domain/input.py`: study elements and the `Study` builder

The state of a `PyM Study` computation is the (mutable) `Study` object. Statements are kept in the
order of the Python code, so that the state left behind by an exception is the one Python leaves.
-/

namespace Hadar

/-- `Consumption` (input.py 33-48) -/
structure Consumption where
  cost : NumVal
  quantity : NumVal
  name : String
  deriving DecidableEq, Repr

/-- `Production` (input.py 57-74) -/
structure Production where
  name : String
  cost : NumVal
  quantity : NumVal
  deriving DecidableEq, Repr

/-- `Storage` (input.py 83-114); `init_capacity` is stored as the number given by the user. -/
structure Storage where
  name : String
  capacity : NumVal
  flowIn : NumVal
  flowOut : NumVal
  cost : NumVal
  initCapacity : ℚ
  eff : NumVal
  deriving DecidableEq, Repr

/-- `Link` (input.py 127-142) -/
structure Link where
  dest : String
  quantity : NumVal
  cost : NumVal
  deriving DecidableEq, Repr

/-- The `cost` and `max` attributes of a converter: the literal integer `0` put by
`_add_converter` (input.py 414-416), or a `NumericalValue` once the destination is set. -/
inductive ConvField where
  | int0
  | val (v : NumVal)
  deriving DecidableEq, Repr

/-- `Converter` (input.py 151-181). The keys of `src_ratios` are Python tuples of strings, modelled
by lists of strings (`[network, node]` when built through the API). -/
structure Converter where
  name : String
  srcRatios : Dict (List String) NumVal
  destNetwork : String
  destNode : String
  cost : ConvField
  max : ConvField
  deriving DecidableEq, Repr

/-- `InputNode` (input.py 207-230) -/
structure InputNode where
  consumptions : List Consumption
  productions : List Production
  storages : List Storage
  links : List Link
  deriving DecidableEq, Repr

/-- `InputNetwork` (input.py 247-258) -/
structure InputNetwork where
  nodes : Dict String InputNode
  deriving DecidableEq, Repr

/-- `Study` (input.py 269-286). `horizon` and `nb_scn` are natural numbers (the code does not check
them). `factory` (286) is always `NumericalValueFactory(horizon, nb_scn)` and is not stored. -/
structure Study where
  version : String
  networks : Dict String InputNetwork
  converters : Dict String Converter
  horizon : ℕ
  nbScn : ℕ
  deriving DecidableEq, Repr

namespace Study

/-- `Study.factory` (input.py 286) -/
def factory (s : Study) : Factory := ⟨s.horizon, s.nbScn⟩

/-- `hadar.__version__` (hadar/__init__.py 30) -/
def hadarVersion : String := "0.5.0"

/-- `Study.__init__` (input.py 274-286): an empty or missing version means the library's. -/
def init (horizon nbScn : ℕ) (version : Option String) : Study where
  version := match version with
    | some v => if v = "" then hadarVersion else v
    | none => hadarVersion
  networks := []
  converters := []
  horizon := horizon
  nbScn := nbScn

/-- the expression `self.networks[network].nodes[node]` -/
def getNode (network node : String) : PyM Study InputNode := do
  let s ← PyM.get
  let net ← PyM.lift (Dict.getE s.networks network)
  PyM.lift (Dict.getE net.nodes node)

/-- in-place mutation of the object `self.networks[network]` -/
def updNet (s : Study) (network : String) (f : InputNetwork → InputNetwork) : Study :=
  { s with networks := s.networks.modify network f }

/-- in-place mutation of the object `self.networks[network].nodes[node]` -/
def updNode (s : Study) (network node : String) (f : InputNode → InputNode) : Study :=
  s.updNet network (fun net => { nodes := net.nodes.modify node f })

/-- `self.factory.create(raw)` -/
def create (r : Raw) : PyM Study NumVal := do
  let s ← PyM.get
  PyM.lift (s.factory.create r)

/-- `add_link` (input.py 319-353) -/
def addLink (network src dest : String) (cost quantity : Raw) : PyM Study Unit := do
  let s ← PyM.get
  let net ← PyM.lift (Dict.getE s.networks network)
  if ¬ net.nodes.contains src then PyM.raise .valueError
  if ¬ net.nodes.contains dest then PyM.raise .valueError
  let n ← getNode network src
  if dest ∈ n.links.map Link.dest then PyM.raise .valueError
  let quantity ← create quantity
  if quantity.lt 0 then PyM.raise .valueError
  let cost ← create cost
  PyM.modify (fun s => s.updNode network src
    (fun n => { n with links := n.links ++ [⟨dest, quantity, cost⟩] }))

/-- `add_network` (input.py 355-357) -/
def addNetwork (network : String) : PyM Study Unit := do
  let s ← PyM.get
  if ¬ s.networks.contains network then
    PyM.modify (fun s => { s with networks := s.networks.set network ⟨[]⟩ })

/-- `add_node` (input.py 359-363) -/
def addNode (network node : String) : PyM Study Unit := do
  let s ← PyM.get
  let net ← PyM.lift (Dict.getE s.networks network)
  if ¬ net.nodes.contains node then
    PyM.modify (fun s => s.updNet network
      (fun net => { nodes := net.nodes.set node ⟨[], [], [], []⟩ }))

/-- `_add_production` (input.py 365-376), on the `Production` object the fluent API has just made
(578-582): its attributes before conversion are the arguments. -/
def addProduction (network node name : String) (cost quantity : Raw) : PyM Study Unit := do
  let n ← getNode network node
  if name ∈ n.productions.map Production.name then PyM.raise .valueError
  let quantity ← create quantity
  if quantity.lt 0 then PyM.raise .valueError
  let cost ← create cost
  PyM.modify (fun s => s.updNode network node
    (fun n => { n with productions := n.productions ++ [⟨name, cost, quantity⟩] }))

/-- `_add_consumption` (input.py 378-389), see `addProduction`. -/
def addConsumption (network node name : String) (cost quantity : Raw) : PyM Study Unit := do
  let n ← getNode network node
  if name ∈ n.consumptions.map Consumption.name then PyM.raise .valueError
  let quantity ← create quantity
  if quantity.lt 0 then PyM.raise .valueError
  let cost ← create cost
  PyM.modify (fun s => s.updNode network node
    (fun n => { n with consumptions := n.consumptions ++ [⟨cost, quantity, name⟩] }))

/-- Arguments of `NodeFluentAPISelector.storage` (input.py 585-594). -/
structure StorageArgs where
  name : String
  capacity : Raw
  flowIn : Raw
  flowOut : Raw
  cost : Raw
  initCapacity : ℚ
  eff : Raw

/-- `_add_storage` (input.py 391-410), see `addProduction`. `init_capacity` must be a number (the
code compares it with `0` directly). -/
def addStorage (network node : String) (a : StorageArgs) : PyM Study Unit := do
  let n ← getNode network node
  if a.name ∈ n.storages.map Storage.name then PyM.raise .valueError
  let flowIn ← create a.flowIn
  let flowOut ← create a.flowOut
  if flowIn.lt 0 || flowOut.lt 0 then PyM.raise .valueError
  let capacity ← create a.capacity
  if capacity.lt 0 || decide (a.initCapacity < 0) then PyM.raise .valueError
  let eff ← create a.eff
  if eff.lt 0 || eff.gt 1 then PyM.raise .valueError
  let cost ← create a.cost
  PyM.modify (fun s => s.updNode network node
    (fun n => { n with storages :=
      n.storages ++ [⟨a.name, capacity, flowIn, flowOut, cost, a.initCapacity, eff⟩] }))

/-- `_add_converter` (input.py 412-416) -/
def addConverter (name : String) : PyM Study Unit := do
  let s ← PyM.get
  if name ∉ s.converters.keys then
    PyM.modify (fun s => { s with
      converters := s.converters.set name ⟨name, [], "", "", .int0, .int0⟩ })

/-- in-place mutation of the object `self.converters[name]` -/
def updConv (s : Study) (name : String) (f : Converter → Converter) : Study :=
  { s with converters := s.converters.modify name f }

/-- `_add_converter_src` (input.py 418-427) -/
def addConverterSrc (name network node : String) (ratio : Raw) : PyM Study Unit := do
  let s ← PyM.get
  let c ← PyM.lift (Dict.getE s.converters name)
  if c.srcRatios.contains [network, node] then PyM.raise .valueError
  let ratio ← create ratio
  PyM.modify (fun s => s.updConv name
    (fun c => { c with srcRatios := c.srcRatios.set [network, node] ratio }))

/-- `_set_converter_dest` (input.py 429-448): the destination attributes are assigned before
`cost` and `max` are converted. -/
def setConverterDest (name network node : String) (cost max : Raw) : PyM Study Unit := do
  let s ← PyM.get
  let c ← PyM.lift (Dict.getE s.converters name)
  if c.destNetwork ≠ "" ∧ c.destNode ≠ "" then PyM.raise .valueError
  match s.networks.get? network with
  | none => PyM.raise .valueError
  | some net => if ¬ net.nodes.contains node then PyM.raise .valueError
  PyM.modify (fun s => s.updConv name (fun c => { c with destNetwork := network }))
  PyM.modify (fun s => s.updConv name (fun c => { c with destNode := node }))
  let cost ← create cost
  PyM.modify (fun s => s.updConv name (fun c => { c with cost := .val cost }))
  let max ← create max
  PyM.modify (fun s => s.updConv name (fun c => { c with max := .val max }))

end Study

end Hadar
