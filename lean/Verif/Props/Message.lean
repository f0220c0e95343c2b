import Verif.Proofs.Message
import Verif.Proofs.Plain
import Verif.Props.Wire

/-!
# C122: what the answer of a worker says
-/

namespace Hadar.Props

open Hadar Spec PyTree

/-- C122: an answer in plain JSON is read as values of variables exactly when it says these values -/
theorem C122 {j : Json} (hp : Plain j) {l : List (LPTimeStep ℚ)} : readSteps j = .ok l ↔ SaysSteps j l := readSteps_says hp

/-- C122: an answer says one thing at most -/
theorem C122_one {j : Json} (hp : Plain j) {l l' : List (LPTimeStep ℚ)} (h : SaysSteps j l) (h' : SaysSteps j l') : l = l' := by
  rw [← readSteps_says hp] at h h'
  rw [h] at h'
  cases h'
  rfl

theorem plain_lpCons (c : LPConsumption ℚ) : Plain (lpConsJson c) := by
  refine .obj _ (by simp) ?_
  simp only [List.forall_mem_cons, List.not_mem_nil, false_imp_iff, implies_true, and_true]
  exact ⟨.num _, .num _, .str _, .num _⟩

theorem plain_lpProd (c : LPProduction ℚ) : Plain (lpProdJson c) := by
  refine .obj _ (by simp) ?_
  simp only [List.forall_mem_cons, List.not_mem_nil, false_imp_iff, implies_true, and_true]
  exact ⟨.str _, .num _, .num _, .num _⟩

theorem plain_lpStor (c : LPStorage ℚ) : Plain (lpStorJson c) := by
  refine .obj _ (by simp) ?_
  simp only [List.forall_mem_cons, List.not_mem_nil, false_imp_iff, implies_true, and_true]
  exact ⟨.str _, .num _, .num _, .num _, .num _, .num _, .num _, .num _, .num _, .num _⟩

theorem plain_lpLink (c : LPLink ℚ) : Plain (lpLinkJson c) := by
  refine .obj _ (by simp) ?_
  simp only [List.forall_mem_cons, List.not_mem_nil, false_imp_iff, implies_true, and_true]
  exact ⟨.str _, .str _, .num _, .num _, .num _⟩

theorem plain_list {α : Type} {l : List α} {f : α → Json} (h : ∀ a, Plain (f a)) : Plain (.arr (l.map f)) :=
  .arr _ fun x hx => by obtain ⟨a, -, rfl⟩ := List.mem_map.1 hx; exact h a

theorem plain_lpNode (n : LPNode ℚ) : Plain (lpNodeJson n) := by
  refine .obj _ (by simp) ?_
  simp only [List.forall_mem_cons, List.not_mem_nil, false_imp_iff, implies_true, and_true]
  exact ⟨plain_list plain_lpCons, plain_list plain_lpProd, plain_list plain_lpStor, plain_list plain_lpLink⟩

theorem plain_numbers {α : Type} (l : List α) (k : α → String) (f : α → ℚ) :
    Plain (.obj (Dict.ofList (l.map fun p => (k p, Json.num (f p))))) := by
  have e : Dict.ofList (l.map fun p => (k p, Json.num (f p))) =
      (Dict.ofList (l.map fun p => (k p, f p))).map fun p => (p.1, Json.num p.2) := by
    rw [← ofList_map_values, List.map_map]; rfl
  refine .obj _ (nodup_ofList _) fun p hp => ?_
  rw [e] at hp
  obtain ⟨q, -, rfl⟩ := List.mem_map.1 hp
  exact .num _

theorem plain_lpConv (x : Var → ℚ) (c : LPConverter Var) : Plain (lpConvJson x c) := by
  refine .obj _ (by simp) ?_
  simp only [List.forall_mem_cons, List.not_mem_nil, false_imp_iff, implies_true, and_true]
  exact ⟨.str _, plain_numbers _ _ _, plain_numbers _ _ _, .str _, .str _, .num _, .num _, .num _⟩

theorem plain_named {α : Type} {l : List (String × α)} {f : α → Json} (hk : (l.map Prod.fst).Nodup) (h : ∀ p ∈ l, Plain (f p.2)) :
    Plain (.obj (l.map fun p => (p.1, f p.2))) := by
  refine .obj _ (by rw [List.map_map]; exact hk) fun p hp => ?_
  obtain ⟨q, hq, rfl⟩ := List.mem_map.1 hp
  exact h q hq

theorem plain_lpStep (x : Var → ℚ) (ts : LPTimeStep Var) (h1 : (ts.networks.map Prod.fst).Nodup)
    (h2 : ∀ p ∈ ts.networks, (p.2.map Prod.fst).Nodup) (h3 : (ts.converters.map Prod.fst).Nodup) : Plain (lpStepJson x ts) := by
  refine .obj _ (by simp) ?_
  simp only [List.forall_mem_cons, List.not_mem_nil, false_imp_iff, implies_true, and_true]
  refine ⟨plain_named (f := fun m => .obj [("nodes", .obj (m.map fun q => (q.1, lpNodeJson (q.2.received x))))]) h1 fun p hp => ?_,
    plain_named h3 fun p _ => plain_lpConv x p.2⟩
  refine .obj _ (by simp) ?_
  simp only [List.forall_mem_cons, List.not_mem_nil, false_imp_iff, implies_true, and_true]
  exact plain_named (f := fun n => lpNodeJson (n.received x)) (h2 p hp) fun q _ => plain_lpNode _

/-- C122: what a worker sends for a study built with the API is plain JSON and says the values of the variables, whatever the types of
its numbers, as long as they can be sent -/
theorem C122_sent {s : Study} {ty : Types} (hb : Built s) (hk : KnownTypes ty s) {k : ℕ} {steps : List (LPTimeStep Var)} {log : List Cmd}
    (h : buildAll s k = .ok (steps, log)) (x : Var → ℚ) :
    ∃ j, (message ty x steps).wire = some j ∧ Plain j ∧ SaysSteps j (steps.map (LPTimeStep.received x)) := by
  have hd := built_dictionaries hb
  have hs := (buildAll_shape hd h).2
  have hp : Plain (.arr (steps.map (lpStepJson x))) := by
    refine .arr _ fun j hj => ?_
    obtain ⟨ts, hts, rfl⟩ := List.mem_map.1 hj
    have hsh := hs ts hts
    refine plain_lpStep x ts ?_ ?_ ?_
    · rw [forall₂_fst hsh.networks fun a b hab => hab.1]; exact hd.networks
    · intro q hq
      obtain ⟨p, hp, e, hn⟩ := forall₂_right hsh.networks hq
      rw [forall₂_fst hn fun a b hab => hab.1]
      exact hd.nodes p hp
    · rw [forall₂_fst hsh.converters fun a b hab => hab.1]; exact hd.converters
  have hw : (message ty x steps).wire = some (.arr (steps.map (lpStepJson x))) := by
    have := wireAll_map (l := steps) (f := fun ts => convert (ts.tree ty x)) (g := lpStepJson x) fun ts hts =>
      LPTimeStep.wire_tree x (((hs ts hts).known ty).mpr hk)
    simp only [message, convert, convertAll_eq, List.map_map, Function.comp_def, wire, this, Option.map_some]
  obtain ⟨j, hj, hr⟩ := message_read hd hs hk x
  rw [hw] at hj
  cases hj
  exact ⟨_, hw, hp, (readSteps_says hp).mp hr⟩

/-! ### A concrete case -/

/-- an answer where a storage says neither its cost, nor its first level, nor its efficiency -/
def shortMessage : Json := .arr [.obj [("converters", .obj []), ("from", .str "worker 3"),
  ("networks", .obj [("elec", .obj [("nodes", .obj [("a", .obj [("links", .arr []), ("productions", .arr []), ("consumptions", .arr []),
    ("storages", .arr [.obj [("name", .str "cell"), ("capacity", .num 8), ("var_capacity", .num 5), ("flow_in", .num 2),
      ("var_flow_in", .num 1), ("flow_out", .num 3), ("var_flow_out", .num 0)]])])])])])]]

theorem shortMessage_plain : Plain shortMessage := by
  unfold shortMessage
  repeat' first
    | exact .num _
    | exact .str _
    | (refine .obj _ (by decide) ?_; simp only [List.forall_mem_cons, List.not_mem_nil, false_imp_iff, implies_true, and_true])
    | (refine .arr _ ?_; simp only [List.forall_mem_cons, List.not_mem_nil, false_imp_iff, implies_true, and_true])
    | refine ⟨?_, ?_⟩

def shortSteps : List (LPTimeStep ℚ) :=
  [⟨[("elec", [("a", ⟨[], [], [⟨"cell", 8, 5, 2, 1, 3, 0, 0, 0, 99 / 100⟩], []⟩)])], []⟩]

theorem shortMessage_read : readSteps shortMessage = .ok shortSteps := by with_unfolding_all rfl

theorem shortMessage_says : SaysSteps shortMessage shortSteps := (C122 shortMessage_plain).mp shortMessage_read

example (l : List (LPTimeStep ℚ)) (h : SaysSteps shortMessage l) : l = shortSteps := C122_one shortMessage_plain h shortMessage_says

/-- the worker of `lpStudy`, its numbers Python's -/
example := C122_sent (s := lpStudy) (ty := fun _ _ => .int) lpStudy_ready.built (by constructor <;> intros <;> simp) (k := 0)
  (Ready.build lpStudy_ready (by decide +kernel)) lpAnswer

end Hadar.Props
