import Verif.Model.LP

/-!
# `hadar/optimizer/remote/optimizer.py` and `hadar/optimizer/optimizer.py`

The server is the list of its successive answers: requests depend only on the study, the url, the
token and the first answer, so that any server amounts to such a list. Progress bar, spinner and
`sleep` are left out, except for what makes them raise.
-/

namespace Hadar

/-- a request made by `solve_remote`. `url` is the server; the code sends to `url/api/v1/study` and
`url/api/v1/result/job`. -/
inductive Request where
  | post (url : String) (study : Json) (token : String)
  | get (url : String) (job : Json) (token : String)

/-- what comes back from `requests.post` or `requests.get`: an exception (no connection...), or a
status code with a body; `none` is a body that is not JSON -/
inductive Response where
  | fail (e : PyErr)
  | http (code : ℕ) (body : Option Json)

/-- what `solve_remote` has done once the given answers came: it returned, raised, or still waits for
the answer to its last request -/
inductive Outcome where
  | returned (r : Result)
  | raised (e : PyErr)
  | waiting

namespace Remote

/-- `check_code` (remote/optimizer.py 26-32) -/
def checkCode (code : ℕ) : Except PyErr Unit :=
  if code = 404 then .error .valueError
  else if code = 403 then .error .valueError
  else if code = 500 then .error .ioError
  else .ok ()

/-- `check_code(resp.status_code)` then `resp.json()` (remote/optimizer.py 45-51, 60-64) -/
def receive : Response → Except PyErr Json
  | .fail e => .error e
  | .http code body => do
    checkCode code
    match body with
    | some j => pure j
    | none => .error .valueError

/-- `resp[k]` -/
def field (j : Json) (k : String) : Except PyErr Json := (Json.item k j).1

/-- `resp["status"] in ["QUEUED", "COMPUTING"]` -/
def inProgress : Json → Bool
  | .str s => s == "QUEUED" || s == "COMPUTING"
  | _ => false

/-- `j == s` -/
def isStr (s : String) : Json → Bool
  | .str s' => s' == s
  | _ => false

/-- `bar.goto(resp["progress"])` when queued (remote/optimizer.py 66-67): needs a number. The branch of
`COMPUTING` (69-73) only draws. -/
def display (resp : Json) : Except PyErr Unit := do
  let status ← field resp "status"
  if isStr "QUEUED" status then
    let p ← field resp "progress"
    let _ ← p.asNum
    pure ()
  else pure ()

/-- after the loop (remote/optimizer.py 77-80) -/
def finish (resp : Json) : Outcome :=
  match field resp "status" with
  | .error e => .raised e
  | .ok status =>
    if isStr "ERROR" status then
      match field resp "message" with
      | .error e => .raised e
      | .ok _ => .raised .serverError
    else
      match field resp "result" with
      | .error e => .raised e
      | .ok j =>
        match (Result.fromJson j).1 with
        | .ok r => .returned r
        | .error e => .raised e

/-- the loop (remote/optimizer.py 59-75), on the answers still to come: requests made and outcome -/
def poll (url : String) (job : Json) (token : String) (resp : Json) :
    List Response → List Request × Outcome
  | [] =>
    match field resp "status" with
    | .error e => ([], .raised e)
    | .ok status =>
      if inProgress status then ([.get url job token], .waiting) else ([], finish resp)
  | r :: rs =>
    match field resp "status" with
    | .error e => ([], .raised e)
    | .ok status =>
      if inProgress status then
        match receive r with
        | .error e => ([.get url job token], .raised e)
        | .ok resp' =>
          match display resp' with
          | .error e => ([.get url job token], .raised e)
          | .ok _ =>
            let rest := poll url job token resp' rs
            (.get url job token :: rest.1, rest.2)
      else ([], finish resp)

/-- before the loop (remote/optimizer.py 50-56): the job, and `Bar(max=resp["progress"])` -/
def start (resp : Json) : Except PyErr Json := do
  let job ← field resp "job"
  let _ ← field resp "progress"
  pure job

/-- `solve_remote` (remote/optimizer.py 35-80) -/
def solveRemote (study : Study) (url token : String) : List Response → List Request × Outcome
  | [] => ([.post url study.toJson token], .waiting)
  | r :: rs =>
    match receive r with
    | .error e => ([.post url study.toJson token], .raised e)
    | .ok resp =>
      match start resp with
      | .error e => ([.post url study.toJson token], .raised e)
      | .ok job =>
        let rest := poll url job token resp rs
        (.post url study.toJson token :: rest.1, rest.2)

end Remote

/-- `RemoteOptimizer` (optimizer.py 41-63) -/
structure RemoteOptimizer where
  url : String
  token : String := ""

/-- `RemoteOptimizer.solve` (optimizer.py 56-63) -/
def RemoteOptimizer.solve (o : RemoteOptimizer) (study : Study) (server : List Response) :
    List Request × Outcome := Remote.solveRemote study o.url o.token server

/-- `LPOptimizer.solve` (optimizer.py 26-38) -/
def LPOptimizer.solve (solver : Solver) (bench : Benchmark) (study : Study) : Except PyErr Result :=
  solveLp solver bench study

end Hadar
