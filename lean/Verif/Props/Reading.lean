import Verif.Proofs.Plain
import Verif.Props.Json

/-!
# C89: what a JSON file says

`Spec/Reading.lean` gives the grammar of the files of studies and of results. Reading succeeds exactly on the files of the grammar,
and gives what they stand for.
-/

namespace Hadar.Props

open Hadar Spec World

/-- C89: reading plain JSON gives the study if and only if the file says that study: the required keys are there, there are no
others inside networks, nodes, elements and converters, and each holds what it must. -/
theorem C89 {j : Json} (hp : Plain j) {s : Study} : (Study.fromJson j).1 = .ok s ↔ SaysStudy j s := study_says hp

/-- C89, results -/
theorem C89_result {j : Json} (hp : Plain j) {r : Result} : (Result.fromJson j).1 = .ok r ↔ SaysResult j r := result_says hp

/-- C89: a file says at most one study -/
theorem C89_one {j : Json} (hp : Plain j) {s s' : Study} (h : SaysStudy j s) (h' : SaysStudy j s') : s = s' := by
  have := (C89 hp).mpr h
  rw [(C89 hp).mpr h'] at this
  exact (Except.ok.inj this).symm

/-- C89: a file says at most one result -/
theorem C89_one_result {j : Json} (hp : Plain j) {r r' : Result} (h : SaysResult j r) (h' : SaysResult j r') : r = r' := by
  have := (C89_result hp).mpr h
  rw [(C89_result hp).mpr h'] at this
  exact (Except.ok.inj this).symm

/-- C89: any study that was read, whoever wrote the file, is written to a file that is read as that study. -/
theorem C89_again {j : Json} (hp : Plain j) {s : Study} (h : (Study.fromJson j).1 = .ok s) :
    (Study.fromJson s.toJson).1 = .ok s := by
  have := study_rewritten hp ((C89 hp).mp h)
  exact (C89 this.1).mpr this.2

/-- C89: any result that was read, whoever wrote the file, is written to a file that is read as that result. -/
theorem C89_again_result {j : Json} (hp : Plain j) {r : Result} (h : (Result.fromJson j).1 = .ok r) :
    (Result.fromJson r.toJson).1 = .ok r := by
  have := result_written hp ((C89_result hp).mp h)
  exact (C89_result this.1).mpr this.2

/-- the keys of the file of a study that count -/
def studyKeys : List String := ["horizon", "nb_scn", "version", "networks", "converters"]

theorem at_append {o o' : List (String × Json)} {k : String} {P : Json → Prop} (h : ∀ p ∈ o', p.1 ≠ k) :
    At (o ++ o') k P ↔ At o k P := by
  unfold At
  constructor
  · rintro ⟨x, hx, hP⟩
    rcases List.mem_append.mp hx with hx | hx
    · exact ⟨x, hx, hP⟩
    · exact absurd rfl (h _ hx)
  · rintro ⟨x, hx, hP⟩
    exact ⟨x, List.mem_append_left _ hx, hP⟩

/-- C89: other keys at the top of the file of a study do not count. -/
theorem C89_extra {o o' : List (String × Json)} (hp : Plain (.obj (o ++ o'))) (hk : ∀ p ∈ o', p.1 ∉ studyKeys) {s : Study} :
    (Study.fromJson (.obj (o ++ o'))).1 = .ok s ↔ (Study.fromJson (.obj o)).1 = .ok s := by
  have hp' : Plain (.obj o) := by
    cases hp with
    | obj _ h1 h2 =>
      rw [List.map_append] at h1
      exact .obj o (List.nodup_append.mp h1).1 fun p hp => h2 p (List.mem_append_left _ hp)
  rw [C89 hp, C89 hp']
  unfold SaysStudy
  have key : ∀ k ∈ studyKeys, ∀ P, At (o ++ o') k P ↔ At o k P := fun k hk' P => at_append fun p hp' e => hk p hp' (e ▸ hk')
  simp only [Json.obj.injEq, exists_eq_left', key "horizon" (by decide), key "nb_scn" (by decide), key "version" (by decide),
    key "networks" (by decide), key "converters" (by decide)]

/-- C89: a consumption, a production or a link with a key of its own that hadar does not know is not read. -/
theorem C89_unknown {h n : ℕ} {o : List (String × Json)} (hp : Plain (.obj o)) {k : String} {x : Json} (hm : (k, x) ∈ o)
    (hk : k ∉ ["cost", "quantity", "name", "dest"]) :
    (∀ c, (Consumption.fromJson ⟨h, n⟩ (.obj o)).1 ≠ .ok c) ∧ (∀ c, (Production.fromJson ⟨h, n⟩ (.obj o)).1 ≠ .ok c) ∧
      ∀ c, (Link.fromJson ⟨h, n⟩ (.obj o)).1 ≠ .ok c := by
  refine ⟨fun c hc => ?_, fun c hc => ?_, fun c hc => ?_⟩
  · obtain ⟨_, e, ho, -⟩ := (consumption_says hp).mp hc
    cases e
    have := ho _ hm
    simp at this hk
    tauto
  · obtain ⟨_, e, ho, -⟩ := (production_says hp).mp hc
    cases e
    have := ho _ hm
    simp at this hk
    tauto
  · obtain ⟨_, e, ho, -⟩ := (link_says hp).mp hc
    cases e
    have := ho _ hm
    simp at this hk
    tauto

/-- C89: what the API writes is plain JSON, so the above applies to it -/
theorem C89_plain (h n : ℕ) (cs : List Call) : Plain ((start h n).run cs).study.toJson :=
  plain_study (reachable_inv h n cs).study.names.networks (reachable_inv h n cs).study.names.nodes
    (reachable_inv h n cs).study.names.converters

/-! ### Concrete cases -/

/-- a file written by hand: a load without name, given by a number and a list, and a key of the user -/
def handFile : Json := .obj [("horizon", .num 2), ("nb_scn", .num 1), ("version", .str ""), ("comment", .str "by hand"),
  ("converters", .obj []),
  ("networks", .obj [("elec", .obj [("nodes", .obj [("a", .obj [("links", .arr []), ("productions", .arr []), ("storages", .arr []),
    ("consumptions", .arr [.obj [("quantity", .arr [.num 3, .num 4]), ("cost", .num 10)]])])])])])]

theorem handFile_plain : Plain handFile := by
  unfold handFile
  repeat' first
    | exact .num _
    | exact .str _
    | (refine .obj _ (by decide) ?_; simp only [List.forall_mem_cons, List.not_mem_nil, false_imp_iff, implies_true, and_true])
    | (refine .arr _ ?_; simp only [List.forall_mem_cons, List.not_mem_nil, false_imp_iff, implies_true, and_true])
    | refine ⟨?_, ?_⟩

/-- the study it stands for -/
def handStudy : Study := ⟨"0.5.0", [("elec", ⟨[("a", ⟨[⟨⟨.scalar 10, 2, 1⟩, ⟨.row ⟨[2], [3, 4], rfl⟩, 2, 1⟩, ""⟩], [], [], []⟩)]⟩)], [], 2, 1⟩

theorem handFile_read : (Study.fromJson handFile).1 = .ok handStudy := by decide +kernel

example : SaysStudy handFile handStudy := (C89 handFile_plain).mp handFile_read

example : (Study.fromJson handStudy.toJson).1 = .ok handStudy := C89_again handFile_plain handFile_read

/-- a key that hadar does not know inside the load: no study is read -/
example : (Study.fromJson (.obj [("horizon", .num 2), ("nb_scn", .num 1), ("version", .str ""), ("converters", .obj []),
  ("networks", .obj [("elec", .obj [("nodes", .obj [("a", .obj [("links", .arr []), ("productions", .arr []), ("storages", .arr []),
    ("consumptions", .arr [.obj [("quantity", .num 3), ("cost", .num 10), ("note", .str "")]])])])])])])).1 = .error .typeError := by
  decide +kernel

example : SaysResult (demoResult "a").toJson (demoResult "a") :=
  (C89_result (plain_result (by simp [demoResult]) (by simp [demoResult]) (by simp [demoResult]))).mp
    (C16_roundtrip_partial _ demoResult_ok)

/-! ### The theorems applied to concrete cases -/

example (s : Study) (h : SaysStudy handFile s) : s = handStudy :=
  C89_one handFile_plain h ((C89 handFile_plain).mp handFile_read)

theorem demoFile_plain : Plain (demoResult "a").toJson :=
  plain_result (by simp [demoResult]) (by simp [demoResult]) (by simp [demoResult])

example (r : Result) (h : SaysResult (demoResult "a").toJson r) : r = demoResult "a" :=
  C89_one_result demoFile_plain h ((C89_result demoFile_plain).mp (C16_roundtrip_partial _ demoResult_ok))

example := C89_again_result demoFile_plain (C16_roundtrip_partial _ demoResult_ok)

/-- a key more at the end of the file -/
example : (Study.fromJson (.obj [("horizon", .num 2), ("nb_scn", .num 1), ("version", .str ""), ("converters", .obj []),
    ("networks", .obj []), ("comment", .str "mine")])).1 = .ok ⟨"0.5.0", [], [], 2, 1⟩ :=
  (C89_extra (o := [("horizon", .num 2), ("nb_scn", .num 1), ("version", .str ""), ("converters", .obj []), ("networks", .obj [])])
    (o' := [("comment", .str "mine")]) (by
      repeat' first
        | exact .num _
        | exact .str _
        | (refine .obj _ (by decide) ?_; simp only [List.cons_append, List.nil_append, List.forall_mem_cons, List.not_mem_nil,
            false_imp_iff, implies_true, and_true])
        | refine ⟨?_, ?_⟩) (by decide)).mpr (by decide +kernel)

/-- a load with a key that hadar does not know -/
example := C89_unknown (h := 2) (n := 1) (o := [("quantity", .num 3), ("cost", .num 10), ("note", .str "")]) (by
  repeat' first
    | exact .num _
    | exact .str _
    | (refine .obj _ (by decide) ?_; simp only [List.forall_mem_cons, List.not_mem_nil, false_imp_iff, implies_true, and_true])
    | refine ⟨?_, ?_⟩) (k := "note") (x := .str "") (by simp) (by decide)

end Hadar.Props
