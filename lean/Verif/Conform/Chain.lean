import Verif.Model.Defaults

/-!
# Chains of calls, as the unit tests write them

The modules of this directory run the model on the unit tests of `/repo/tests`: what a test asserts of the code is asserted of the
model. They are checks of the transcription of the code, not proofs of properties (those are in `Verif/Props`).
-/

namespace Hadar.Conform

/-- A method of the fluent builder; `none` is a parameter left out. -/
inductive Method where
  | network (name : Option String := none)
  | node (name : String)
  | consumption (name : String) (cost quantity : Raw)
  | production (name : String) (cost quantity : Raw)
  | storage (name : String) (capacity flowIn flowOut : Raw) (cost : Option Raw := none) (initCapacity : Option ℚ := none)
      (eff : Option Raw := none)
  | link (src dest : String) (cost quantity : Raw)
  | converter (name toNetwork toNode : String) (max : Raw) (cost : Option Raw := none)
  | toConverter (name : String) (ratio : Option Raw := none)

/-- the call of a method on what the call before returned; `none` when the object has no such method (`AttributeError`) -/
def Method.on : Handle → Method → Option Call
  | .study, .network name => some (.network name)
  | .net ref, .network name => some (.netNetwork ref (name.getD "default"))
  | .net ref, .node name => some (.netNode ref name)
  | .net ref, .link src dest cost quantity => some (.netLink ref src dest cost quantity)
  | .net ref, .converter name net nd max cost => some (.converter false ref name net nd max cost)
  | .node ref, .network name => some (.nodeNetwork ref (name.getD "default"))
  | .node ref, .node name => some (.nodeNode ref name)
  | .node ref, .link src dest cost quantity => some (.nodeLink ref src dest cost quantity)
  | .node ref, .converter name net nd max cost => some (.converter true ref name net nd max cost)
  | .node ref, .consumption name cost quantity => some (.nodeConsumption ref name cost quantity)
  | .node ref, .production name cost quantity => some (.nodeProduction ref name cost quantity)
  | .node ref, .storage name capacity flowIn flowOut cost init eff => some (.storage ref name capacity flowIn flowOut cost init eff)
  | .node ref, .toConverter name ratio => some (.toConverter ref name ratio)
  | _, _ => none

/-- a chain of calls from a world and an object: the first error stops it -/
def chainFrom : World → Handle → List Method → Except PyErr Study
  | w, _, [] => .ok w.study
  | w, h, m :: ms =>
    match Method.on h m with
    | none => .error .attributeError
    | some c =>
      match World.step c w with
      | (.ok h', w') => chainFrom w' h' ms
      | (.error e, _) => .error e

/-- `Study(horizon, nb_scn).….build()` -/
def chain (horizon : ℕ) (nbScn : ℕ := 1) (ms : List Method) : Except PyErr Study := chainFrom (World.start horizon nbScn) .study ms

/-- the study of a chain that raises nothing (an empty one otherwise) -/
def built (horizon : ℕ) (nbScn : ℕ := 1) (ms : List Method) : Study :=
  match chain horizon nbScn ms with
  | .ok s => s
  | .error _ => Study.init horizon nbScn none

/-- the calls of a chain that raises nothing -/
def callsFrom : World → Handle → List Method → List Call
  | _, _, [] => []
  | w, h, m :: ms =>
    match Method.on h m with
    | none => []
    | some c =>
      match World.step c w with
      | (.ok h', w') => c :: callsFrom w' h' ms
      | (.error _, _) => []

instance {ε α : Type} [DecidableEq ε] [DecidableEq α] : DecidableEq (Except ε α) := fun a b =>
  match a, b with
  | .ok a, .ok b => decidable_of_iff (a = b) (by simp)
  | .error a, .error b => decidable_of_iff (a = b) (by simp)
  | .ok _, .error _ => isFalse (by simp)
  | .error _, .ok _ => isFalse (by simp)

end Hadar.Conform
