import Verif.Model.Shuffler
import Verif.Spec.Pipeline

/-!
# What is expected of the shuffler
-/

namespace Hadar

namespace Spec

/-- a sampler that gives as many indexes as asked, all within range -/
def DrawsInRange {σ : Type} (sampler : Sampler σ) : Prop :=
  ∀ n nb r ix r', sampler 0 (n : ℕ) nb r = (.ok ix, r') → ix.length = nb ∧ ∀ z ∈ ix, 0 ≤ z ∧ z < n

/-- the rows picked at the given positions -/
def Picked (d : Rows) (ix : List ℤ) (rows : Rows) : Prop :=
  List.Forall₂ (fun (z : ℤ) row => ∃ k : ℕ, z = k ∧ d[k]? = some row) ix rows

/-- A registration: raw data, or data and a pipeline, under a name -/
inductive Registration where
  | data (name : String) (rows : Rows)
  | pipeline (name : String) (d : Data) (p : ℕ)

def Registration.name : Registration → String
  | .data n _ => n
  | .pipeline n _ _ => n

/-- the registration must be accepted: the data has the columns the pipeline needs and the pipeline announces
`to_shuffler` -/
def Acceptable {σ : Type} (w : PipeWorld σ) : Registration → Prop
  | .data _ _ => True
  | .pipeline _ d p => ∃ plug l, w.pipes[p]? = some (plug, l) ∧ (∀ n ∈ plug.inputs, hasColumn d n) ∧
      "to_shuffler" ∈ plug.outputs w.outs

/-- what is registered -/
inductive Registers : Registration → Origin → Prop
  | data (name rows) : Registers (.data name rows) (.raw rows)
  | pipeline {name d t p} (h : Labelled d t) : Registers (.pipeline name d p) (.pipe t p)

/-- `o` is the last thing registered under that name (each registration with the session it was made in) -/
def Last {σ : Type} (regs : List (PipeWorld σ × Registration)) (name : String) (o : Origin) : Prop :=
  ∃ pre w reg post, regs = pre ++ (w, reg) :: post ∧ reg.name = name ∧ Acceptable w reg ∧ Registers reg o ∧
    ∀ x ∈ post, x.2.name = name → ¬ Acceptable x.1 x.2

/-- the data of a registration: raw data as it is; for a pipeline, the columns named `to_shuffler` of its
result, as rows -/
inductive Own {σ : Type} (g : Rng σ) (w : PipeWorld σ) (r : Rand σ) : Origin → Rows → Prop
  | raw (d) : Own g w r (.raw d) d
  | pipe {df p t s rows} (run : w.callPipe g p (.multi df, r) = (.ok t, s)) (there : has t "to_shuffler")
      (hrows : List.Forall₂ (fun (c : (Cell × String) × List Val) row => row = c.2)
        (t.cols.filter fun c => c.1.2 = "to_shuffler") rows) : Own g w r (.pipe df p) rows

/-- The result of the pipeline, if any, has a column with an empty name only beside other columns to drop.
(Otherwise it is not dropped, see `C58_refuted`.) -/
def NoBlank {σ : Type} (g : Rng σ) (w : PipeWorld σ) : Origin → Prop
  | .raw _ => True
  | .pipe df p => ∀ r t s, w.callPipe g p (.multi df, r) = (.ok t, s) → has t "" →
      ∃ n, n ≠ "" ∧ n ≠ "to_shuffler" ∧ has t n

end Spec

/-- the registrations made one after the other; the caller goes on after a refusal -/
def registerAll {σ : Type} : List (PipeWorld σ × Spec.Registration) → Shuffler → Shuffler
  | [], s => s
  | (_, .data name rows) :: rest, s => registerAll rest (Shuffler.addData name rows s).2
  | (w, .pipeline name d p) :: rest, s => registerAll rest (Shuffler.addPipeline w name p (d, s)).2.2

end Hadar
