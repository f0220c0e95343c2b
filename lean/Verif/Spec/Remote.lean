import Verif.Model.Remote

/-! # What a session with a server is (independent of the code) -/

namespace Hadar.Spec

open Hadar

/-- the value of a key of an object -/
def HasField (j : Json) (k : String) (v : Json) : Prop := ∃ o, j = .obj o ∧ Dict.get? o k = some v

/-- the codes that mean failure -/
def FailureCode (code : ℕ) : Prop := code = 404 ∨ code = 403 ∨ code = 500

/-- an answer that carries the JSON object `j` -/
def Carries (r : Response) (j : Json) : Prop :=
  ∃ code, r = .http code (some j) ∧ ¬ FailureCode code

/-- the job is waiting or running -/
def Unfinished (j : Json) : Prop :=
  HasField j "status" (.str "QUEUED") ∨ HasField j "status" (.str "COMPUTING")

/-- an answer that says the job is waiting, with its place in the queue, or running -/
def StillWorking (r : Response) : Prop := ∃ j, Carries r j ∧
  ((HasField j "status" (.str "QUEUED") ∧ ∃ q, HasField j "progress" (.num q)) ∨
    HasField j "status" (.str "COMPUTING"))

/-- the answer to the submission: the name of the job and its progress -/
def Acknowledges (r : Response) (job : Json) : Prop :=
  ∃ j p, Carries r j ∧ HasField j "job" job ∧ HasField j "progress" p

/-- the requests of a session where `n` answers were polled -/
def requests (study : Study) (url : String) (token : String) (job : Json) (n : ℕ) : List Request :=
  .post url study.toJson token :: List.replicate n (.get url job token)

end Hadar.Spec
