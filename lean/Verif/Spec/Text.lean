import Verif.Model.Text
import Verif.Spec.Dto

/-!
# What the texts of objects should be: the class, then the attributes in alphabetical order
-/

namespace Hadar.Spec

open Hadar

variable (T : Texts)

/-- a list in brackets -/
def bracket (l : List String) : String := "[" ++ ", ".intercalate l ++ "]"

/-- a dict in braces -/
def brace (l : List String) : String := "{" ++ ", ".intercalate l ++ "}"

/-- a pair of names (in general a tuple) as key -/
def tupleText (l : List String) : String :=
  match l with
  | [a] => "(" ++ T.quote a ++ ",)"
  | l => "(" ++ ", ".intercalate (l.map T.quote) ++ ")"

/-- a series -/
def valueText (v : NumVal) : String :=
  let size := "(horizon=" ++ T.num v.horizon ++ ", nb_scn=" ++ T.num v.nbScn ++ ", value="
  match v.kind with
  | .scalar q => "ScalarNumericalValue" ++ size ++ T.num q ++ ")"
  | .matrix a => "MatrixNumericalValue" ++ size ++ T.array a ++ ")"
  | .row a => "RowNumericValue" ++ size ++ T.array a ++ ")"
  | .column a => "ColumnNumericValue" ++ size ++ T.array a ++ ")"

/-- the cost or the limit of a converter -/
def fieldText : ConvField → String
  | .int0 => T.num 0
  | .val v => valueText T v

def consumptionText (c : Consumption) : String :=
  "Consumption(cost=" ++ valueText T c.cost ++ ", name=" ++ c.name ++ ", quantity=" ++ valueText T c.quantity ++ ")"

def productionText (c : Production) : String :=
  "Production(cost=" ++ valueText T c.cost ++ ", name=" ++ c.name ++ ", quantity=" ++ valueText T c.quantity ++ ")"

def storageText (c : Storage) : String :=
  "Storage(capacity=" ++ valueText T c.capacity ++ ", cost=" ++ valueText T c.cost ++ ", eff=" ++ valueText T c.eff ++
  ", flow_in=" ++ valueText T c.flowIn ++ ", flow_out=" ++ valueText T c.flowOut ++ ", init_capacity=" ++ T.num c.initCapacity ++
  ", name=" ++ c.name ++ ")"

def linkText (c : Link) : String :=
  "Link(cost=" ++ valueText T c.cost ++ ", dest=" ++ c.dest ++ ", quantity=" ++ valueText T c.quantity ++ ")"

def converterText (c : Converter) : String :=
  "Converter(cost=" ++ fieldText T c.cost ++ ", dest_network=" ++ c.destNetwork ++ ", dest_node=" ++ c.destNode ++
  ", max=" ++ fieldText T c.max ++ ", name=" ++ c.name ++ ", src_ratios=" ++
  brace (c.srcRatios.map fun p => tupleText T p.1 ++ ": " ++ valueText T p.2) ++ ")"

def nodeText (n : InputNode) : String :=
  "InputNode(consumptions=" ++ bracket (n.consumptions.map (consumptionText T)) ++ ", links=" ++ bracket (n.links.map (linkText T)) ++
  ", productions=" ++ bracket (n.productions.map (productionText T)) ++ ", storages=" ++ bracket (n.storages.map (storageText T)) ++ ")"

def networkText (n : InputNetwork) : String :=
  "InputNetwork(nodes=" ++ brace (n.nodes.map fun p => T.quote p.1 ++ ": " ++ nodeText T p.2) ++ ")"

/-- a study whose factory is the object `i` -/
def studyText (i : ℕ) (s : Study) : String :=
  "Study(converters=" ++ brace (s.converters.map fun p => T.quote p.1 ++ ": " ++ converterText T p.2) ++ ", factory=" ++ T.place i ++
  ", horizon=" ++ T.num s.horizon ++ ", nb_scn=" ++ T.num s.nbScn ++ ", networks=" ++
  brace (s.networks.map fun p => T.quote p.1 ++ ": " ++ networkText T p.2) ++ ", version=" ++ s.version ++ ")"

def outputConsumptionText (c : OutputConsumption) : String :=
  "OutputConsumption(name=" ++ c.name ++ ", quantity=" ++ T.array c.quantity ++ ")"

def outputProductionText (c : OutputProduction) : String :=
  "OutputProduction(name=" ++ c.name ++ ", quantity=" ++ T.array c.quantity ++ ")"

def outputStorageText (c : OutputStorage) : String :=
  "OutputStorage(capacity=" ++ T.array c.capacity ++ ", flow_in=" ++ T.array c.flowIn ++ ", flow_out=" ++ T.array c.flowOut ++
  ", name=" ++ c.name ++ ")"

def outputLinkText (c : OutputLink) : String :=
  "OutputLink(dest=" ++ c.dest ++ ", quantity=" ++ T.array c.quantity ++ ")"

def outputConverterText (c : OutputConverter) : String :=
  "OutputConverter(flow_dest=" ++ T.array c.flowDest ++ ", flow_src=" ++
  brace (c.flowSrc.map fun p => tupleText T p.1 ++ ": " ++ T.arrayRepr p.2) ++ ", name=" ++ c.name ++ ")"

def outputNodeText (n : OutputNode) : String :=
  "OutputNode(consumptions=" ++ bracket (n.consumptions.map (outputConsumptionText T)) ++ ", links=" ++
  bracket (n.links.map (outputLinkText T)) ++ ", productions=" ++ bracket (n.productions.map (outputProductionText T)) ++
  ", storages=" ++ bracket (n.storages.map (outputStorageText T)) ++ ")"

def outputNetworkText (n : OutputNetwork) : String :=
  "OutputNetwork(nodes=" ++ brace (n.nodes.map fun p => T.quote p.1 ++ ": " ++ outputNodeText T p.2) ++ ")"

def benchmarkText (b : Benchmark) : String :=
  "Benchmark(mapper=" ++ T.num b.mapper ++ ", modeler=" ++ bracket (b.modeler.map T.num) ++ ", solver=" ++
  bracket (b.solver.map T.num) ++ ", total=" ++ T.num b.total ++ ")"

def resultText (r : Result) : String :=
  "Result(benchmark=" ++ benchmarkText T r.benchmark ++ ", converters=" ++
  brace (r.converters.map fun p => T.quote p.1 ++ ": " ++ outputConverterText T p.2) ++ ", networks=" ++
  brace (r.networks.map fun p => T.quote p.1 ++ ": " ++ outputNetworkText T p.2) ++ ")"

/-- the identity of the factory of a study -/
def factoryOf : PyObj → Option ℕ
  | .inst _ _ d => match d.find? fun p => p.1 = .str "factory" with
    | some (_, .inst i _ _) => some i
    | _ => none
  | _ => none

/-- no comma, no parenthesis and no bracket that closes -/
def PlainText (s : String) : Prop := ∀ c ∈ s.toList, c ≠ ',' ∧ c ≠ ')' ∧ c ≠ ']'

/-- no comma and no parenthesis that closes -/
def Token (s : String) : Prop := ∀ c ∈ s.toList, c ≠ ',' ∧ c ≠ ')'

/-- What is assumed of the texts of Python and numpy. Numbers are told apart by their texts, and so are arrays that are written in full:
`P` is meant for arrays of at most 1000 numbers, of which eight digits are enough. -/
structure LawfulTexts (P : NdArray → Prop) : Prop where
  num : Function.Injective T.num
  numPlain : ∀ q, PlainText (T.num q)
  numStart : ∀ q, ∃ c ∈ (T.num q).toList.head?, c.isDigit ∨ c = '-'
  array : ∀ a b, P a → P b → T.array a = T.array b → a = b
  arrayToken : ∀ a, Token (T.array a)
  quote : ∀ s s' r r' : String, T.quote s ++ r = T.quote s' ++ r' → s = s'
  quoteStart : ∀ s, (T.quote s).toList.head? = some '\'' ∨ (T.quote s).toList.head? = some '"'
  arrayRepr : ∀ a b (r r' : String), P a → P b → T.arrayRepr a ++ r = T.arrayRepr b ++ r' → a = b
  place : ∀ i, Token (T.place i)
  places : Function.Injective T.place

/-- names that are written as they are: no comma, no parenthesis that closes -/
structure WrittenNames (s : Study) : Prop where
  nodes : ∀ p ∈ s.networks, ∀ q ∈ p.2.nodes,
    (∀ c ∈ q.2.consumptions, Token c.name) ∧ (∀ c ∈ q.2.productions, Token c.name) ∧ (∀ c ∈ q.2.storages, Token c.name) ∧
    ∀ c ∈ q.2.links, Token c.dest
  converters : ∀ p ∈ s.converters, Token p.2.name ∧ Token p.2.destNetwork ∧ Token p.2.destNode
  version : Token s.version

/-- the same in a result -/
structure WrittenResult (r : Result) : Prop where
  nodes : ∀ p ∈ r.networks, ∀ q ∈ p.2.nodes,
    (∀ c ∈ q.2.consumptions, Token c.name) ∧ (∀ c ∈ q.2.productions, Token c.name) ∧ (∀ c ∈ q.2.storages, Token c.name) ∧
    ∀ c ∈ q.2.links, Token c.dest
  converters : ∀ p ∈ r.converters, Token p.2.name

end Hadar.Spec
