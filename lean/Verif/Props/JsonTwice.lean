import Verif.Proofs.JsonTwice
import Verif.Props.Json

/-!
# C17: what reading a result leaves of the object read
-/

namespace Hadar.Props

open Hadar Spec

/-- C17, the result half: what is left of the object is `Result.left`: nodes have become Python objects, sources of converters
are designated by tuples, and nothing else has changed. What is missing: it is not the object as it was. -/
theorem C17_left_partial {r : Result} (h : ResultOk r) : (Hadar.Result.fromJson r.toJson).2 = Result.left r := result_left h

/-- C17, the result half: a second reading of the object raises `TypeError` when the result has a node, else `AttributeError` when
a converter has a source, else it gives the result again. What is missing: it should always give the result again. -/
theorem C17_second_partial {r : Result} (h : ResultOk r) :
    (Hadar.Result.fromJson (Hadar.Result.fromJson r.toJson).2).1 = Result.secondReading r := by
  rw [result_left h, result_again h]

/-- C17, the result half: the object is as it was exactly when the result has no node and no converter -/
theorem C17_same_partial {r : Result} (h : ResultOk r) :
    (Hadar.Result.fromJson r.toJson).2 = r.toJson ↔ (∀ p ∈ r.networks, p.2.nodes = []) ∧ r.converters = [] := by
  rw [result_left h]
  constructor
  · intro e
    unfold Result.left Hadar.Result.toJson at e
    simp only [Json.obj.injEq, List.cons.injEq, Prod.mk.injEq, true_and, and_true, List.map_inj_left] at e
    constructor
    · intro p hp
      have := e.1 p hp
      unfold OutputNetwork.left OutputNetwork.toJson at this
      simp only [Json.obj.injEq, List.cons.injEq, Prod.mk.injEq, true_and, and_true, List.map_inj_left] at this
      cases hl : p.2.nodes with
      | nil => rfl
      | cons q l =>
        have := this q (by rw [hl]; exact List.mem_cons_self ..)
        cases this
    · cases hl : r.converters with
      | nil => rfl
      | cons q l =>
        have := e.2 q (by rw [hl]; exact List.mem_cons_self ..)
        unfold OutputConverter.left OutputConverter.toJson at this
        simp at this
  rintro ⟨hn, hc⟩
  unfold Result.left Hadar.Result.toJson
  rw [hc]
  have : (r.networks.map fun p => (p.1, OutputNetwork.left p.2)) = r.networks.map fun p => (p.1, p.2.toJson) := by
    apply List.map_congr_left
    intro p hp
    unfold OutputNetwork.left OutputNetwork.toJson
    rw [hn p hp]
    rfl
  rw [this]
  rfl

/-! ### Concrete cases -/

example : (Hadar.Result.fromJson (Hadar.Result.fromJson (demoResult "a").toJson).2).1 = Result.secondReading (demoResult "a") :=
  C17_second_partial demoResult_ok

example : Result.secondReading (demoResult "a") = .error .typeError := by decide +kernel

/-- a converter without source -/
def lonely : Result := ⟨[("elec", ⟨[]⟩)], [("conv", ⟨"conv", [], ⟨[2, 1], [1, 2], rfl⟩⟩)], ⟨[], [], 0, 0⟩⟩

/-- a converter with a source -/
def sourced : Result := ⟨[], [("conv", ⟨"conv", [(["elec", "a"], ⟨[1, 1], [3], rfl⟩)], ⟨[1, 1], [1], rfl⟩⟩)], ⟨[], [], 0, 0⟩⟩

example : (Hadar.Result.fromJson (Hadar.Result.fromJson lonely.toJson).2).1 = .ok lonely := by decide +kernel

example : (Hadar.Result.fromJson (Hadar.Result.fromJson sourced.toJson).2).1 = .error .attributeError ∧
    Result.secondReading sourced = .error .attributeError := by decide +kernel

/-! ### The theorems applied to concrete cases -/

example : (Hadar.Result.fromJson (demoResult "a").toJson).2 = Result.left (demoResult "a") := C17_left_partial demoResult_ok

end Hadar.Props
