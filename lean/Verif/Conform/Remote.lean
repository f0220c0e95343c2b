import Verif.Conform.Chain
import Verif.Model.Remote

/-! # `tests/optimizer/remote/test_optimizer.py` on the model -/

namespace Hadar.Conform

open Hadar

/-- the study and the result of the test -/
def remoteStudy : Study := built 1 1 [.network, .node "a", .consumption "load" (cost := .num 0) (quantity := .json (.arr [.num 0]))]

def remoteResult : Result := ⟨[("default", ⟨[("a", ⟨[⟨⟨[1], [0], rfl⟩, "load"⟩], [], [], []⟩)]⟩)], [], ⟨[], [], 0, 0⟩⟩

/-- what `MockSchedulerServer` answers to its two requests -/
def mockServer : List Response := [
  .http 200 (some (.obj [("job", .num 123), ("status", .str "QUEUED"), ("progress", .num 1)])),
  .http 200 (some (.obj [("job", .num 123), ("status", .str "TERMINATED"), ("result", remoteResult.toJson)]))]

-- test_job_terminated: the two requests, with an empty token, and the result
example : (match RemoteOptimizer.solve ⟨"http://localhost:6984", ""⟩ remoteStudy mockServer with
    | ([.post u1 s t1, .get u2 (.num j) t2], .returned r) => decide (u1 = "http://localhost:6984" ∧ t1 = "" ∧ u2 = u1 ∧ t2 = "" ∧
        j = 123 ∧ (Study.fromJson s).1 = .ok remoteStudy ∧ r = remoteResult)
    | _ => false) = true := by decide +kernel

-- test_check_code
example : Remote.checkCode 404 = .error .valueError ∧ Remote.checkCode 403 = .error .valueError ∧
    Remote.checkCode 500 = .error .ioError := by decide +kernel

end Hadar.Conform
