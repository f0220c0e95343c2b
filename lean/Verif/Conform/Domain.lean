import Verif.Conform.Chain
import Verif.Model.Output

/-!
# `tests/optimizer/domain` on the model
-/

namespace Hadar.Conform

/-! ### `test_numeric.py` -/

/-- `setUp` -/
def factory : Factory := ⟨5, 3⟩

/-- `np.arange(n)` -/
def arange (n : ℕ) : List ℚ := (List.range n).map (fun i : ℕ => (i : ℚ))

-- test_scalar
def fortyTwo : NumVal := ⟨.scalar 42, 5, 3⟩
example : factory.create (.num 42) = .ok fortyTwo ∧ fortyTwo.getitem 2 3 = .ok 42 ∧
    fortyTwo.getitem 3 1 = .error .indexError ∧ fortyTwo.getitem 1 5 = .error .indexError ∧
    fortyTwo.lt 50 = true ∧ fortyTwo.lt 30 = false ∧ fortyTwo.flatten = List.replicate 15 42 := by decide +kernel

-- test_matrix
def matrix15 : NdArray := ⟨[3, 5], arange 15, rfl⟩
example : factory.create (.array matrix15) = .ok ⟨.matrix matrix15, 5, 3⟩ ∧
    NumVal.getitem ⟨.matrix matrix15, 5, 3⟩ 2 3 = .ok 13 ∧
    NumVal.getitem ⟨.matrix matrix15, 5, 3⟩ 3 1 = .error .indexError ∧ NumVal.getitem ⟨.matrix matrix15, 5, 3⟩ 1 5 = .error .indexError ∧
    NumVal.lt ⟨.matrix matrix15, 5, 3⟩ 16 = true ∧ NumVal.lt ⟨.matrix matrix15, 5, 3⟩ 10 = false ∧
    NumVal.flatten ⟨.matrix matrix15, 5, 3⟩ = arange 15 := by decide +kernel

-- test_row
def row5 : NdArray := ⟨[5], arange 5, rfl⟩
example : factory.create (.array row5) = .ok ⟨.row row5, 5, 3⟩ ∧ NumVal.getitem ⟨.row row5, 5, 3⟩ 2 3 = .ok 3 ∧
    NumVal.getitem ⟨.row row5, 5, 3⟩ 3 1 = .error .indexError ∧ NumVal.getitem ⟨.row row5, 5, 3⟩ 1 5 = .error .indexError ∧
    NumVal.flatten ⟨.row row5, 5, 3⟩ = arange 5 ++ arange 5 ++ arange 5 := by decide +kernel

-- test_column
def column3 : NdArray := ⟨[3, 1], arange 3, rfl⟩
example : factory.create (.array column3) = .ok ⟨.column column3, 5, 3⟩ ∧ NumVal.getitem ⟨.column column3, 5, 3⟩ 2 3 = .ok 2 ∧
    NumVal.getitem ⟨.column column3, 5, 3⟩ 3 1 = .error .indexError ∧ NumVal.getitem ⟨.column column3, 5, 3⟩ 1 5 = .error .indexError ∧
    NumVal.flatten ⟨.column column3, 5, 3⟩ = [0, 0, 0, 0, 0, 1, 1, 1, 1, 1, 2, 2, 2, 2, 2] := by decide +kernel

/-! ### `test_input.py` -/

/-- `setUp` -/
def inputChain : List Method :=
  [.network, .node "a", .consumption "load" (cost := .num 20) (quantity := .num 10),
   .production "nuclear" (cost := .num 20) (quantity := .num 10), .toConverter "converter" (some (.num 1)),
   .node "b", .link "b" "a" (cost := .num 20) (quantity := .num 10),
   .network (some "gas"), .node "b", .production "nuclear" (cost := .num 20) (quantity := .num 10),
   .storage "store" (capacity := .num 100) (flowIn := .num 10) (flowOut := .num 10) (cost := some (.num 1))
     (initCapacity := some 4) (eff := some (.num (1 / 10))),
   .node "a", .consumption "load" (cost := .num 20) (quantity := .num 10), .link "b" "a" (cost := .num 20) (quantity := .num 10),
   .converter "converter" "gas" "b" (cost := some (.num 10)) (max := .num 10)]

def one (q : ℚ) : NumVal := ⟨.scalar q, 1, 1⟩

/-- the study that `test_create_study` expects -/
def inputStudy : Study where
  version := "0.5.0"
  networks := [
    ("default", ⟨[("a", ⟨[⟨one 20, one 10, "load"⟩], [⟨"nuclear", one 20, one 10⟩], [], []⟩),
                  ("b", ⟨[], [], [], [⟨"a", one 10, one 20⟩]⟩)]⟩),
    ("gas", ⟨[("b", ⟨[], [⟨"nuclear", one 20, one 10⟩], [⟨"store", one 100, one 10, one 10, one 1, 4, one (1 / 10)⟩],
                    [⟨"a", one 10, one 20⟩]⟩),
              ("a", ⟨[⟨one 20, one 10, "load"⟩], [], [], []⟩)]⟩)]
  converters := [("converter", ⟨"converter", [(["default", "a"], one 1)], "gas", "b", .val (one 10), .val (one 10)⟩)]
  horizon := 1
  nbScn := 1

-- test_create_study
example : chain 1 1 inputChain = .ok inputStudy := by decide +kernel

/-- a chain on node `fr` of the default network -/
def onFr (ms : List Method) : Except PyErr Study := chain 1 1 ([.network, .node "fr"] ++ ms)

-- test_wrong_production_quantity, test_wrong_production_name
example : onFr [.production "solar" (.num 1) (.num (-10))] = .error .valueError := by decide +kernel
example : onFr [.production "solar" (.num 1) (.num (-10)), .production "solar" (.num 1) (.num (-10))] = .error .valueError := by
  decide +kernel
-- test_wrong_consumption_quantity, test_wrong_consumption_name
example : onFr [.consumption "load" (.num 1) (.num (-10))] = .error .valueError := by decide +kernel
example : onFr [.consumption "load" (.num 1) (.num (-10)), .consumption "load" (.num 1) (.num (-10))] = .error .valueError := by
  decide +kernel
-- test_wrong_storage_flow
example : onFr [.storage "store" (.num 1) (.num (-1)) (.num 1)] = .error .valueError := by decide +kernel
example : onFr [.storage "store" (.num 1) (.num 1) (.num (-1))] = .error .valueError := by decide +kernel
-- test_wrong_storage_capacity
example : onFr [.storage "store" (.num (-1)) (.num 1) (.num 1)] = .error .valueError := by decide +kernel
example : onFr [.storage "store" (.num 1) (.num 1) (.num 1) (initCapacity := some (-1))] = .error .valueError := by decide +kernel
-- test_wrong_storage_eff
example : onFr [.storage "store" (.num 1) (.num 1) (.num 1) (eff := some (.num (-1)))] = .error .valueError := by decide +kernel
-- test_wrong_link_quantity, test_wrong_link_dest_not_node, test_wrong_link_dest_not_unique
example : onFr [.node "be", .link "fr" "be" (.num 10) (.num (-10))] = .error .valueError := by decide +kernel
example : onFr [.node "be", .link "fr" "it" (.num 10) (.num 10)] = .error .valueError := by decide +kernel
example : onFr [.node "be", .link "fr" "be" (.num 10) (.num 10), .link "fr" "be" (.num 10) (.num 10)] = .error .valueError := by
  decide +kernel
-- test_wrong_converter_dest
example : chain 1 1 [.network (some "elec"), .node "a", .converter "conv" "gas" "a" (max := .num 1)] = .error .valueError := by
  decide +kernel
example : chain 1 1 [.network (some "gas"), .node "a", .converter "conv" "gas" "b" (max := .num 1)] = .error .valueError := by
  decide +kernel
-- test_wrong_converter_src
example : chain 1 1 [.network, .node "a", .toConverter "conv" (some (.num 1)), .toConverter "conv" (some (.num 2)),
    .converter "conv" "" "" (max := .num 1)] = .error .valueError := by decide +kernel
-- test_serialization
example : (Study.fromJson inputStudy.toJson).1 = .ok inputStudy := by decide +kernel

/-! ### `test_output.py` -/

def cell1 : NdArray := ⟨[1, 1], [1], rfl⟩

/-- the result of `test_json` -/
def jsonResult : Result where
  networks := [("default", ⟨[("a", ⟨[⟨cell1, "load"⟩], [⟨"prod", cell1⟩], [⟨"cell", cell1, cell1, cell1⟩], [⟨"b", cell1⟩]⟩)]⟩)]
  converters := [("cell", ⟨"conv", [(["elec", "b"], cell1)], cell1⟩)]
  benchmark := ⟨[], [], 0, 0⟩

-- test_json
example : (Result.fromJson jsonResult.toJson).1 = .ok jsonResult := by decide +kernel

end Hadar.Conform
