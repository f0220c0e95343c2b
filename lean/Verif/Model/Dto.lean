import Verif.Model.Output
import Verif.Model.Pipeline
import Mathlib.Data.String.Basic

/-!
# `DTO`: equality and hash of the objects of the library (optimizer/utils.py 11-34)

Python objects are trees whose nodes carry the identity of the object. What is said here of the comparison
of dicts and lists in CPython, and of arrays in numpy (1.18 to 1.26, requirements.txt), is trusted.
-/

namespace Hadar

/-- key of a dict, or name of an attribute: a string or a tuple of strings -/
inductive PyKey where
  | str (s : String)
  | tup (l : List String)
  deriving DecidableEq, Repr

/-- a Python object as `==` and `hash` see it; `id` is its identity. Numbers and strings are compared by
value (NaN is not modelled), so that their identity does not matter. -/
inductive PyObj where
  | num (q : ℚ)
  | str (s : String)
  | arr (id : ℕ) (a : NdArray)
  | list (id : ℕ) (l : List PyObj)
  | dict (id : ℕ) (d : List (PyKey × PyObj))
  | inst (id : ℕ) (cls : String) (attrs : List (PyKey × PyObj))

/-- the shape numpy gives to an operation on two arrays, sides read from the last one; `none` when shapes are
not compatible -/
def broadcast : List ℕ → List ℕ → Option (List ℕ)
  | [], m => some m
  | n, [] => some n
  | a :: n, b :: m =>
    match broadcast n m with
    | none => none
    | some r => if a = b then some (a :: r) else if a = 1 then some (b :: r)
      else if b = 1 then some (a :: r) else none

/-- `bool(a == b)` for two numpy arrays: an array of booleans has a truth value when it has one element, none
when it has more (`ValueError`), and is false when empty. Arrays of shapes that do not fit are different, or
raise since numpy 1.25 (`strict`). -/
def arrayEq (strict : Bool) (a b : NdArray) : Except PyErr Bool :=
  match broadcast a.shape.reverse b.shape.reverse with
  | none => if strict then .error .valueError else .ok false
  | some sh =>
    if sh.prod = 0 then .ok false
    else if sh.prod = 1 then .ok (decide (a.data.head? = b.data.head?))
    else .error .valueError

namespace PyObj

mutual
/-- `PyObject_RichCompareBool(x, y, Py_EQ)`: the same object is equal to itself; otherwise `x == y`.
Instances: `DTO.__eq__` (utils.py 19-20) or `NumericalValueFactory.__eq__` (numeric.py 162-165), which compares
its two attributes. No class of these objects is derived from another one, so that `isinstance(other,
type(self))` is whether the classes are the same. Simplification: comparing an array with something else than
an array gives false (numpy would broadcast); it does not occur on attributes of objects of the same class. -/
def eq (strict : Bool) : PyObj → PyObj → Except PyErr Bool
  | .num q, y => match y with
    | .num q' => .ok (decide (q = q'))
    | _ => .ok false
  | .str s, y => match y with
    | .str s' => .ok (decide (s = s'))
    | _ => .ok false
  | .arr i a, y => match y with
    | .arr j b => if i = j then .ok true else arrayEq strict a b
    | _ => .ok false
  | .list i l, y => match y with
    | .list j m =>
      if i = j then .ok true else if l.length = m.length then eqItems strict l m else .ok false
    | _ => .ok false
  | .dict i d, y => match y with
    | .dict j e =>
      if i = j then .ok true else if d.length = e.length then eqEntries strict d e else .ok false
    | _ => .ok false
  | .inst i c d, y => match y with
    | .inst j c' e =>
      if i = j then .ok true
      else if c = c' then if d.length = e.length then eqEntries strict d e else .ok false
      else .ok false
    | _ => .ok false
/-- lists of the same length: item by item, up to the first difference -/
def eqItems (strict : Bool) : List PyObj → List PyObj → Except PyErr Bool
  | [], _ => .ok true
  | x :: xs, l => match l with
    | [] => .ok false
    | y :: ys => match eq strict x y with
      | .error e => .error e
      | .ok false => .ok false
      | .ok true => eqItems strict xs ys
/-- dicts of the same size: each entry of the first one is looked up in the second one -/
def eqEntries (strict : Bool) : List (PyKey × PyObj) → List (PyKey × PyObj) → Except PyErr Bool
  | [], _ => .ok true
  | (k, x) :: d, e => match Dict.get? e k with
    | none => .ok false
    | some y => match eq strict x y with
      | .error e => .error e
      | .ok false => .ok false
      | .ok true => eqEntries strict d e
end

/-- `x == y` for an instance: `DTO.__eq__` (utils.py 19-20), where only attributes may be found to be the same
objects; for other objects as above -/
def equal (strict : Bool) (x y : PyObj) : Except PyErr Bool :=
  match x, y with
  | .inst _ c d, .inst _ c' e =>
    if c = c' then if d.length = e.length then eqEntries strict d e else .ok false else .ok false
  | _, _ => eq strict x y

/-- the hash functions of Python: numbers, strings, tuples (from the hashes of their items) -/
structure Hashes where
  num : ℚ → ℤ
  str : String → ℤ
  tuple : List ℤ → ℤ

/-- the hash of a key -/
def Hashes.key (h : Hashes) : PyKey → ℤ
  | .str s => h.str s
  | .tup l => h.tuple (l.map h.str)

/-- order of `sorted(self.__dict__.items())` (utils.py 17): by name, names being different -/
def keyBefore : PyKey → PyKey → Bool
  | .str a, .str b => decide (a ≤ b)
  | .str _, .tup _ => true
  | .tup _, .str _ => false
  | .tup _, .tup _ => true

mutual
/-- `hash(x)`: lists, dicts and arrays have none, nor have factories, whose class defines `__eq__` alone
(numeric.py 157-165); `DTO.__hash__` (utils.py 16-17) is the hash of the tuple of pairs of a name and a value,
sorted by name -/
def hash (h : Hashes) : PyObj → Except PyErr ℤ
  | .num q => .ok (h.num q)
  | .str s => .ok (h.str s)
  | .arr _ _ => .error .typeError
  | .list _ _ => .error .typeError
  | .dict _ _ => .error .typeError
  | .inst _ c d =>
    if c = "NumericalValueFactory" then .error .typeError
    else match hashEntries h d with
      | .error e => .error e
      | .ok l => .ok (h.tuple ((l.insertionSort fun a b => keyBefore a.1 b.1 = true).map fun p =>
          h.tuple [h.key p.1, p.2]))
/-- hashes of the values of a dict, with their keys -/
def hashEntries (h : Hashes) : List (PyKey × PyObj) → Except PyErr (List (PyKey × ℤ))
  | [] => .ok []
  | (k, x) :: d => match hash h x with
    | .error e => .error e
    | .ok z => match hashEntries h d with
      | .error e => .error e
      | .ok l => .ok ((k, z) :: l)
end

mutual
/-- the object without identities: what it contains -/
def erase : PyObj → PyObj
  | .num q => .num q
  | .str s => .str s
  | .arr _ a => .arr 0 a
  | .list _ l => .list 0 (eraseItems l)
  | .dict _ d => .dict 0 (eraseEntries d)
  | .inst _ c d => .inst 0 c (eraseEntries d)
def eraseItems : List PyObj → List PyObj
  | [] => []
  | x :: l => erase x :: eraseItems l
def eraseEntries : List (PyKey × PyObj) → List (PyKey × PyObj)
  | [] => []
  | (k, x) :: d => (k, erase x) :: eraseEntries d
end

/-- an attribute -/
def attr (name : String) (x : PyObj) : PyKey × PyObj := (.str name, x)

end PyObj

open PyObj (attr)

/-! ### The attributes of the objects of a study and of a result, without identities -/

/-- the classes of values (numeric.py 55, 98, 115, 136) -/
def NumKind.cls : NumKind → String
  | .scalar _ => "ScalarNumericalValue"
  | .matrix _ => "MatrixNumericalValue"
  | .row _ => "RowNumericValue"
  | .column _ => "ColumnNumericValue"

/-- numeric.py 23-26 -/
def NumVal.obj (v : NumVal) : PyObj :=
  .inst 0 v.kind.cls [attr "value" (match v.kind with
      | .scalar q => .num q
      | .matrix a | .row a | .column a => .arr 0 a),
    attr "horizon" (.num v.horizon), attr "nb_scn" (.num v.nbScn)]

/-- input.py 414-416, 429-448 -/
def ConvField.obj : ConvField → PyObj
  | .int0 => .num 0
  | .val v => v.obj

/-- input.py 45-48 -/
def Consumption.obj (c : Consumption) : PyObj :=
  .inst 0 "Consumption" [attr "cost" c.cost.obj, attr "quantity" c.quantity.obj, attr "name" (.str c.name)]

/-- input.py 72-74 -/
def Production.obj (c : Production) : PyObj :=
  .inst 0 "Production" [attr "name" (.str c.name), attr "cost" c.cost.obj, attr "quantity" c.quantity.obj]

/-- input.py 108-114 -/
def Storage.obj (c : Storage) : PyObj :=
  .inst 0 "Storage" [attr "name" (.str c.name), attr "capacity" c.capacity.obj, attr "flow_in" c.flowIn.obj,
    attr "flow_out" c.flowOut.obj, attr "cost" c.cost.obj, attr "init_capacity" (.num c.initCapacity),
    attr "eff" c.eff.obj]

/-- input.py 140-142 -/
def Link.obj (c : Link) : PyObj :=
  .inst 0 "Link" [attr "dest" (.str c.dest), attr "quantity" c.quantity.obj, attr "cost" c.cost.obj]

/-- input.py 176-181 -/
def Converter.obj (c : Converter) : PyObj :=
  .inst 0 "Converter" [attr "name" (.str c.name),
    attr "src_ratios" (.dict 0 (c.srcRatios.map fun p => (.tup p.1, p.2.obj))),
    attr "dest_network" (.str c.destNetwork), attr "dest_node" (.str c.destNode),
    attr "cost" c.cost.obj, attr "max" c.max.obj]

/-- input.py 226-230 -/
def InputNode.obj (n : InputNode) : PyObj :=
  .inst 0 "InputNode" [attr "consumptions" (.list 0 (n.consumptions.map Consumption.obj)),
    attr "productions" (.list 0 (n.productions.map Production.obj)),
    attr "storages" (.list 0 (n.storages.map Storage.obj)),
    attr "links" (.list 0 (n.links.map Link.obj))]

/-- input.py 258 -/
def InputNetwork.obj (n : InputNetwork) : PyObj :=
  .inst 0 "InputNetwork" [attr "nodes" (.dict 0 (n.nodes.map fun p => (.str p.1, p.2.obj)))]

/-- numeric.py 157-160 -/
def Factory.obj (f : Factory) : PyObj :=
  .inst 0 "NumericalValueFactory" [attr "horizon" (.num f.horizon), attr "nb_scn" (.num f.nbScn)]

/-- input.py 281-286 -/
def Study.obj (s : Study) : PyObj :=
  .inst 0 "Study" [attr "version" (.str s.version),
    attr "networks" (.dict 0 (s.networks.map fun p => (.str p.1, p.2.obj))),
    attr "converters" (.dict 0 (s.converters.map fun p => (.str p.1, p.2.obj))),
    attr "horizon" (.num s.horizon), attr "nb_scn" (.num s.nbScn), attr "factory" s.factory.obj]

/-- output.py 38-39 -/
def OutputConsumption.obj (c : OutputConsumption) : PyObj :=
  .inst 0 "OutputConsumption" [attr "quantity" (.arr 0 c.quantity), attr "name" (.str c.name)]

/-- output.py 58-59 -/
def OutputProduction.obj (c : OutputProduction) : PyObj :=
  .inst 0 "OutputProduction" [attr "name" (.str c.name), attr "quantity" (.arr 0 c.quantity)]

/-- output.py 86-89 -/
def OutputStorage.obj (c : OutputStorage) : PyObj :=
  .inst 0 "OutputStorage" [attr "name" (.str c.name), attr "capacity" (.arr 0 c.capacity),
    attr "flow_in" (.arr 0 c.flowIn), attr "flow_out" (.arr 0 c.flowOut)]

/-- output.py 108-109 -/
def OutputLink.obj (c : OutputLink) : PyObj :=
  .inst 0 "OutputLink" [attr "dest" (.str c.dest), attr "quantity" (.arr 0 c.quantity)]

/-- output.py 134-136 -/
def OutputConverter.obj (c : OutputConverter) : PyObj :=
  .inst 0 "OutputConverter" [attr "name" (.str c.name),
    attr "flow_src" (.dict 0 (c.flowSrc.map fun p => (.tup p.1, .arr 0 p.2))),
    attr "flow_dest" (.arr 0 c.flowDest)]

/-- output.py 177-181 -/
def OutputNode.obj (n : OutputNode) : PyObj :=
  .inst 0 "OutputNode" [attr "consumptions" (.list 0 (n.consumptions.map OutputConsumption.obj)),
    attr "productions" (.list 0 (n.productions.map OutputProduction.obj)),
    attr "storages" (.list 0 (n.storages.map OutputStorage.obj)),
    attr "links" (.list 0 (n.links.map OutputLink.obj))]

/-- output.py 229 -/
def OutputNetwork.obj (n : OutputNetwork) : PyObj :=
  .inst 0 "OutputNetwork" [attr "nodes" (.dict 0 (n.nodes.map fun p => (.str p.1, p.2.obj)))]

/-- output.py 245-248 -/
def Benchmark.obj (b : Benchmark) : PyObj :=
  .inst 0 "Benchmark" [attr "modeler" (.list 0 (b.modeler.map .num)), attr "solver" (.list 0 (b.solver.map .num)),
    attr "mapper" (.num b.mapper), attr "total" (.num b.total)]

/-- output.py 270-272 -/
def Result.obj (r : Result) : PyObj :=
  .inst 0 "Result" [attr "networks" (.dict 0 (r.networks.map fun p => (.str p.1, p.2.obj))),
    attr "converters" (.dict 0 (r.converters.map fun p => (.str p.1, p.2.obj))),
    attr "benchmark" r.benchmark.obj]

/-- the attributes of plugs: pipeline.py 40-43, 80-84, 113-122 -/
def Plug.obj (h : Heap) (p : Plug) : PyObj :=
  .inst 0 (match p with
      | .free => "FreePlug"
      | .restricted _ _ => "RestrictedPlug")
    [attr "inputs" (.list 0 (p.inputs.map .str)), attr "outputs" (.list 0 ((p.outputs h).map .str)),
      attr "inputs_no_used" (.list 0 [])]

end Hadar
