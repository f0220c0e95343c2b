import Verif.Model.Dto

/-!
# Texts of objects: `DTO.__str__` and `DTO.__repr__` (optimizer/utils.py 22-34)

How Python writes numbers, quoted strings and addresses, and numpy arrays, are parameters.
-/

namespace Hadar

/-- How Python and numpy write: `num` a number, `quote` a string inside a container, `array` and `arrayRepr` an array (`str`, `repr`),
`place` an object whose class defines neither `__str__` nor `__repr__` (`<... object at 0x...>`), from its identity. Simplification: the
text of a number depends on its value only (Python writes `1` or `1.0`). -/
structure Texts where
  num : ℚ → String
  quote : String → String
  array : NdArray → String
  arrayRepr : NdArray → String
  place : ℕ → String

/-- `", ".join(l)` -/
def commaJoined : List String → String
  | [] => ""
  | [x] => x
  | x :: y :: l => x ++ ", " ++ commaJoined (y :: l)

/-- `repr` of a tuple of strings: a comma follows a single item -/
def Texts.tuple (T : Texts) (l : List String) : String :=
  "(" ++ commaJoined (l.map T.quote) ++ (if l.length = 1 then "," else "") ++ ")"

/-- `repr` of the key of a dict -/
def Texts.key (T : Texts) : PyKey → String
  | .str s => T.quote s
  | .tup l => T.tuple l

/-- the name of an attribute in `"{}={}".format(k, ...)` (utils.py 27); attributes have no tuple as name -/
def Texts.attrName (T : Texts) : PyKey → String
  | .str s => s
  | .tup l => T.tuple l

namespace PyObj

mutual
/-- `str(x)`: `DTO.__str__` (utils.py 22-31) writes the class and the attributes in alphabetical order of names (`sorted(self.__dict__)`),
each with `str`; lists and dicts are written with `repr` of what they contain; `NumericalValueFactory` (numeric.py 157-165) defines
no text -/
def text (T : Texts) : PyObj → String
  | .num q => T.num q
  | .str s => s
  | .arr _ a => T.array a
  | .list _ l => "[" ++ commaJoined (reprItems T l) ++ "]"
  | .dict _ d => "{" ++ commaJoined (reprEntries T d) ++ "}"
  | .inst i c d =>
    if c = "NumericalValueFactory" then T.place i
    else c ++ "(" ++ commaJoined (((textAttrs T d).insertionSort fun a b => keyBefore a.1 b.1 = true).map fun p =>
      T.attrName p.1 ++ "=" ++ p.2) ++ ")"
/-- `repr(x)`: the same, except strings and arrays; `DTO.__repr__` is `DTO.__str__` (utils.py 33-34) -/
def shown (T : Texts) : PyObj → String
  | .num q => T.num q
  | .str s => T.quote s
  | .arr _ a => T.arrayRepr a
  | .list _ l => "[" ++ commaJoined (reprItems T l) ++ "]"
  | .dict _ d => "{" ++ commaJoined (reprEntries T d) ++ "}"
  | .inst i c d =>
    if c = "NumericalValueFactory" then T.place i
    else c ++ "(" ++ commaJoined (((textAttrs T d).insertionSort fun a b => keyBefore a.1 b.1 = true).map fun p =>
      T.attrName p.1 ++ "=" ++ p.2) ++ ")"
/-- `repr` of the items of a list -/
def reprItems (T : Texts) : List PyObj → List String
  | [] => []
  | x :: l => shown T x :: reprItems T l
/-- `repr` of the entries of a dict -/
def reprEntries (T : Texts) : List (PyKey × PyObj) → List String
  | [] => []
  | (k, x) :: d => (T.key k ++ ": " ++ shown T x) :: reprEntries T d
/-- `str` of the values of the attributes, with their names -/
def textAttrs (T : Texts) : List (PyKey × PyObj) → List (PyKey × String)
  | [] => []
  | (k, x) :: d => (k, text T x) :: textAttrs T d
end

end PyObj

end Hadar
