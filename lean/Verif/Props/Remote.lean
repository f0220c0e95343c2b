import Verif.Proofs.Remote
import Verif.Props.Json
import Verif.Props.LPExamples

/-! # Properties of remote solving (C29, C30, C65) -/

namespace Hadar.Props

open Hadar Spec Remote World

/-! ### C29 -/

/-- C29: when `solve` returns, it has polled up to the first answer that is not "queued" or
"computing", that answer is not an error, and what is returned is the result in that answer. The
requests are the submission, then one per polled answer, all about the job named by the server. -/
theorem C29_returns (o : RemoteOptimizer) (study : Study) (server : List Response)
    {reqs : List Request} {r : Result} (h : o.solve study server = (reqs, .returned r)) :
    ∃ n job final last, reqs = requests study o.url o.token job n ∧
      (∃ r0 j0, server[0]? = some r0 ∧ Carries r0 j0 ∧ HasField j0 "job" job) ∧
      (∀ i < n, ∃ x j, server[i]? = some x ∧ Carries x j ∧ Unfinished j) ∧
      server[n]? = some last ∧ Carries last final ∧ ¬ Unfinished final ∧
      ¬ HasField final "status" (.str "ERROR") ∧
      ∃ res, HasField final "result" res ∧ (Result.fromJson res).1 = .ok r := by
  unfold RemoteOptimizer.solve at h
  cases server with
  | nil => unfold solveRemote at h; cases h
  | cons x xs =>
    rw [solveRemote] at h
    cases hx : receive x with
    | error e => rw [hx] at h; cases h
    | ok resp =>
      rw [hx] at h
      dsimp only at h
      cases hj : Remote.start resp with
      | error e => rw [hj] at h; cases h
      | ok job =>
        rw [hj] at h
        dsimp only at h
        rw [Prod.mk.injEq] at h
        obtain ⟨rfl, h⟩ := h
        have hjob : HasField resp "job" job := by
          unfold Remote.start at hj
          cases h1 : field resp "job" with
          | error e => rw [h1] at hj; cases hj
          | ok v =>
            cases h2 : field resp "progress" with
            | error e => rw [h1, h2] at hj; cases hj
            | ok w => rw [h1, h2] at hj; cases hj; exact field_iff.mp h1
        obtain ⟨n, final, h1, h2, h3, h4, h5⟩ := poll_returned
          (reqs := (poll o.url job o.token resp xs).1) (Prod.ext rfl h)
        have hc := receive_iff.mp hx
        rcases h5 with ⟨rfl, rfl⟩ | ⟨m, rfl, hu, hw, y, hy, hf⟩
        · exact ⟨0, job, final, x, by rw [h1]; rfl, ⟨x, final, by simp, hc, hjob⟩, by simp,
            by simp, hc, h2, h3, h4⟩
        · refine ⟨m + 1, job, final, y, by rw [h1]; rfl, ⟨x, resp, by simp, hc, hjob⟩, ?_,
            by simpa using hy, hf, h2, h3, h4⟩
          intro i hi
          cases i with
          | zero => exact ⟨x, resp, by simp, hc, hu⟩
          | succ i =>
            obtain ⟨y, j, hy, hc⟩ := hw i (by omega)
            exact ⟨y, j, by simpa using hy, hc⟩

/-- C29: whatever the server answers, what is sent is the study, with the token, then questions about one
job, at most one after each answer -/
theorem C29_requests (o : RemoteOptimizer) (study : Study) (server : List Response) :
    ∃ job n, n ≤ server.length ∧ (o.solve study server).1 = requests study o.url o.token job n := by
  unfold RemoteOptimizer.solve
  cases server with
  | nil => exact ⟨.null, 0, le_rfl, rfl⟩
  | cons x xs =>
    rw [solveRemote]
    cases receive x with
    | error e => exact ⟨.null, 0, by simp, rfl⟩
    | ok resp =>
      dsimp only
      cases Remote.start resp with
      | error e => exact ⟨.null, 0, by simp, rfl⟩
      | ok job =>
        obtain ⟨n, hn, e⟩ := poll_requests o.url o.token job resp xs
        exact ⟨job, n, by simpa using hn, by dsimp only; rw [e]; rfl⟩

/-- what `solve` does after the acknowledgement `r0` and the answers `l`, all of which say that the
job goes on -/
theorem solve_working (o : RemoteOptimizer) (study : Study) {r0 : Response} {job : Json}
    (h0 : Acknowledges r0 job) (hw : StillWorking r0) (l rest : List Response)
    (hl : ∀ r ∈ l, StillWorking r) :
    ∃ resp, Unfinished resp ∧ o.solve study (r0 :: l ++ rest) =
      (requests study o.url o.token job l.length ++ (poll o.url job o.token resp rest).1,
        (poll o.url job o.token resp rest).2) := by
  obtain ⟨j, p, hc, h1, h2⟩ := h0
  have hu : Unfinished j := by
    obtain ⟨j', hc', h⟩ := hw
    obtain ⟨c, rfl, _⟩ := hc
    obtain ⟨c', e, _⟩ := hc'
    cases e
    rcases h with ⟨h, _⟩ | h
    · exact Or.inl h
    · exact Or.inr h
  obtain ⟨resp, hr, e⟩ := poll_working (url := o.url) (token := o.token) (job := job) hu l rest hl
  refine ⟨resp, hr, ?_⟩
  unfold RemoteOptimizer.solve
  rw [List.cons_append, solveRemote, receive_iff.mpr hc]
  dsimp only
  rw [start_ok h1 h2]
  dsimp only
  rw [e]
  rfl

/-- C29: whatever the number of "queued" and "computing" answers, the result of the first other
answer is returned, and no request follows -/
theorem C29_completes (o : RemoteOptimizer) (study : Study) {r0 : Response} {job : Json}
    (h0 : Acknowledges r0 job) (hw : StillWorking r0) (l : List Response)
    (hl : ∀ r ∈ l, StillWorking r) {last : Response} {final st res : Json} (hf : Carries last final)
    (hst : HasField final "status" st) (hu : ¬ Unfinished final) (he : st ≠ .str "ERROR")
    (hres : HasField final "result" res) {r : Result} (hr : (Result.fromJson res).1 = .ok r)
    (rest : List Response) :
    o.solve study (r0 :: l ++ last :: rest) =
      (requests study o.url o.token job (l.length + 1), .returned r) := by
  obtain ⟨resp, hp, e⟩ := solve_working o study h0 hw l (last :: rest) hl
  rw [e, poll_step hp hf (Or.inr ⟨st, hst, ?_⟩), poll_done _ hst hu]
  · simp only [finish, field_iff.mpr hst, field_iff.mpr hres, hr]
    rw [if_neg (by rw [isStr_iff]; exact he)]
    simp [requests, List.replicate_succ']
  · rintro rfl; exact hu (Or.inl hst)

/-- C29: a job that ends in error raises `ServerError`, and no request follows -/
theorem C29_job_error (o : RemoteOptimizer) (study : Study) {r0 : Response} {job : Json}
    (h0 : Acknowledges r0 job) (hw : StillWorking r0) (l : List Response)
    (hl : ∀ r ∈ l, StillWorking r) {last : Response} {final msg : Json} (hf : Carries last final)
    (hst : HasField final "status" (.str "ERROR")) (hm : HasField final "message" msg)
    (rest : List Response) :
    o.solve study (r0 :: l ++ last :: rest) =
      (requests study o.url o.token job (l.length + 1), .raised .serverError) := by
  have hu : ¬ Unfinished final := by
    rintro (h | h) <;> (have := hst.unique h; simp at this)
  obtain ⟨resp, hp, e⟩ := solve_working o study h0 hw l (last :: rest) hl
  rw [e, poll_step hp hf (Or.inr ⟨_, hst, by simp⟩), poll_done _ hst hu]
  simp only [finish, field_iff.mpr hst, field_iff.mpr hm]
  rw [if_pos (isStr_iff.mpr rfl)]
  simp [requests, List.replicate_succ']

/-- C29: while the server says that the job goes on, `solve` neither returns nor raises -/
theorem C29_waits (o : RemoteOptimizer) (study : Study) {r0 : Response} {job : Json}
    (h0 : Acknowledges r0 job) (hw : StillWorking r0) (l : List Response)
    (hl : ∀ r ∈ l, StillWorking r) :
    o.solve study (r0 :: l) =
      (requests study o.url o.token job (l.length + 1), .waiting) := by
  obtain ⟨resp, hp, e⟩ := solve_working o study h0 hw l [] hl
  rw [List.append_nil] at e
  rw [e, poll_nil hp]
  simp [requests, List.replicate_succ']

/-- C29, C30: once `solve` has returned or raised, it makes no request any more -/
theorem C29_stops (o : RemoteOptimizer) (study : Study) (server more : List Response)
    (h : (o.solve study server).2 ≠ .waiting) :
    o.solve study (server ++ more) = o.solve study server := by
  unfold RemoteOptimizer.solve at *
  cases server with
  | nil => exact absurd rfl h
  | cons x xs =>
    rw [List.cons_append, solveRemote, solveRemote]
    rw [solveRemote] at h
    cases hx : receive x with
    | error e => rfl
    | ok resp =>
      rw [hx] at h
      dsimp only at h ⊢
      cases hj : Remote.start resp with
      | error e => rfl
      | ok job =>
        rw [hj] at h
        dsimp only at h ⊢
        rw [poll_append _ _ h]

/-! ### C30 -/

/-- the exception of a failure code -/
def failure (code : ℕ) : PyErr := if code = 500 then .ioError else .valueError

theorem receive_failureCode {code : ℕ} (h : FailureCode code) (body : Option Json) :
    receive (.http code body) = .error (failure code) := by
  rcases h with rfl | rfl | rfl <;> rfl

/-- C30: a submission answered by 404, 403 or 500 raises, and it is the only request -/
theorem C30_submission (o : RemoteOptimizer) (study : Study) {code : ℕ} (h : FailureCode code)
    (body : Option Json) (rest : List Response) :
    o.solve study (.http code body :: rest) =
      ([.post o.url study.toJson o.token], .raised (failure code)) := by
  unfold RemoteOptimizer.solve
  rw [solveRemote, receive_failureCode h]

/-- C30: after any number of answers that say the job goes on, a poll answered by 404, 403 or 500
raises, and it is the last request -/
theorem C30_poll (o : RemoteOptimizer) (study : Study) {r0 : Response} {job : Json}
    (h0 : Acknowledges r0 job) (hw : StillWorking r0) (l : List Response)
    (hl : ∀ r ∈ l, StillWorking r) {code : ℕ} (h : FailureCode code) (body : Option Json)
    (rest : List Response) :
    o.solve study (r0 :: l ++ .http code body :: rest) =
      (requests study o.url o.token job (l.length + 1), .raised (failure code)) := by
  obtain ⟨resp, hp, e⟩ := solve_working o study h0 hw l (.http code body :: rest) hl
  rw [e, poll_fail hp (receive_failureCode h body)]
  simp [requests, List.replicate_succ']

/-- C30: no result ever comes out of a session where a failure code was received while polling -/
theorem C30_no_result (o : RemoteOptimizer) (study : Study) (server : List Response)
    {reqs : List Request} {r : Result} (h : o.solve study server = (reqs, .returned r)) :
    ∀ i < reqs.length, ∃ code body, server[i]? = some (.http code body) ∧ ¬ FailureCode code := by
  obtain ⟨n, job, final, last, rfl, -, h1, h2, ⟨c, rfl, hc⟩, -⟩ := C29_returns o study server h
  intro i hi
  simp only [requests, List.length_cons, List.length_replicate] at hi
  rcases Nat.lt_or_ge i n with hlt | hge
  · obtain ⟨x, j, hx, ⟨c', rfl, hc'⟩, _⟩ := h1 i hlt
    exact ⟨c', _, hx, hc'⟩
  · obtain rfl : i = n := by omega
    exact ⟨c, _, h2, hc⟩

/-! ### C65: remote and local solving agree -/

/-- C65: when the server solves the study it receives with the same solver and sends the result back,
`RemoteOptimizer` returns what `LPOptimizer` returns, for every study that survives JSON -/
theorem C65_same (o : RemoteOptimizer) {s : Study} (hs : Ready s) (hn : 0 < s.nbScn)
    (solver : Solver) (b : Benchmark) {r0 : Response} {job : Json}
    (h0 : Acknowledges r0 job) (hw : StillWorking r0) (l : List Response)
    (hl : ∀ r ∈ l, StillWorking r) {last : Response} {final : Json} (hf : Carries last final)
    (hst : HasField final "status" (.str "TERMINATED"))
    (hres : ∀ received rs, (Study.fromJson s.toJson).1 = .ok received →
      LPOptimizer.solve solver b received = .ok rs → HasField final "result" rs.toJson)
    (rest : List Response) :
    ∃ r, LPOptimizer.solve solver b s = .ok r ∧
      (o.solve s (r0 :: l ++ last :: rest)).2 = .returned r := by
  obtain ⟨h, n, cs, hraw, rfl⟩ := hs.built
  obtain ⟨r, hr, -⟩ := C26_mirrors hs solver b
  have hn' : 0 < n := by
    have := (run_ext (worldInv_start h n) cs).nbScn
    rw [this] at hn
    exact hn
  have hback := C14_roundtrip_complete_partial h n cs hn' hraw hs.clean hs.complete
  have hfin := hres _ r hback hr
  refine ⟨r, hr, ?_⟩
  rw [C29_completes o _ h0 hw l hl hf hst ?_ (by simp) hfin (C16_optimizer hs hn hr)]
  rintro (h | h) <;> (have := hst.unique h; simp at this)

/-! ### The hypotheses, on a session -/

def queued (p : ℚ) : Response :=
  .http 200 (some (.obj [("job", .str "myid"), ("status", .str "QUEUED"), ("progress", .num p)]))

def computing : Response :=
  .http 200 (some (.obj [("status", .str "COMPUTING"), ("progress", .num 0)]))

def terminated (r : Result) : Response :=
  .http 200 (some (.obj [("status", .str "TERMINATED"), ("result", r.toJson)]))

theorem queued_ack (p : ℚ) : Acknowledges (queued p) (.str "myid") :=
  ⟨_, .num p, ⟨200, rfl, by simp [FailureCode]⟩, ⟨_, rfl, by simp [Dict.get?]⟩,
    ⟨_, rfl, by simp [Dict.get?]⟩⟩

theorem queued_working (p : ℚ) : StillWorking (queued p) :=
  ⟨_, ⟨200, rfl, by simp [FailureCode]⟩, Or.inl ⟨⟨_, rfl, by simp [Dict.get?]⟩,
    p, ⟨_, rfl, by simp [Dict.get?]⟩⟩⟩

theorem computing_working : StillWorking computing :=
  ⟨_, ⟨200, rfl, by simp [FailureCode]⟩, Or.inr ⟨_, rfl, by simp [Dict.get?]⟩⟩

/-- a whole session: queued, computing twice, then the result -/
theorem session_returns (study : Study) : (RemoteOptimizer.solve ⟨"http://host", "tok"⟩ study
    [queued 3, queued 1, computing, computing, terminated (demoResult "a"), computing]).2 =
    .returned (demoResult "a") := by
  have h := C29_completes ⟨"http://host", "tok"⟩ study (queued_ack 3) (queued_working 3)
    [queued 1, computing, computing] (by
      intro r hr
      simp only [List.mem_cons, List.not_mem_nil, or_false] at hr
      rcases hr with rfl | rfl | rfl
      · exact queued_working 1
      · exact computing_working
      · exact computing_working)
    (last := terminated (demoResult "a")) (st := .str "TERMINATED")
    ⟨200, rfl, by simp [FailureCode]⟩ ⟨_, rfl, by simp [Dict.get?]⟩
    (by rintro (⟨_, h, h'⟩ | ⟨_, h, h'⟩) <;> (cases h; simp [Dict.get?] at h')) (by simp)
    ⟨_, rfl, by simp [Dict.get?]⟩ (C16_roundtrip_partial _ demoResult_ok) [computing]
  exact congrArg Prod.snd h

/-- C30 does not cover other codes: the body of an answer with code 401 or 502 is used as it is -/
example (study : Study) : (RemoteOptimizer.solve ⟨"http://host", "tok"⟩ study
    [queued 3, .http 502 (some (.obj [("status", .str "COMPUTING")]))]).2 = .waiting := by
  have h := C29_waits ⟨"http://host", "tok"⟩ study (queued_ack 3) (queued_working 3)
    [.http 502 (some (.obj [("status", .str "COMPUTING")]))] (by
      intro r hr
      simp only [List.mem_singleton] at hr
      subst hr
      exact ⟨_, ⟨502, rfl, by simp [FailureCode]⟩, Or.inr ⟨_, rfl, by simp [Dict.get?]⟩⟩)
  exact congrArg Prod.snd h

/-- the hypotheses of C65, with the study of the examples on the optimizer -/
example (solver : Solver) (b : Benchmark) : ∃ r, LPOptimizer.solve solver b lpStudy = .ok r ∧
    (RemoteOptimizer.solve ⟨"http://host", "tok"⟩ lpStudy [queued 3, computing,
      terminated r]).2 = .returned r := by
  obtain ⟨r, hr, -⟩ := C26_mirrors lpStudy_ready solver b
  have hn : 0 < lpStudy.nbScn := by decide +kernel
  obtain ⟨r', hr', h⟩ := C65_same ⟨"http://host", "tok"⟩ lpStudy_ready hn solver b (queued_ack 3)
    (queued_working 3) [computing] (by
      intro r hr
      simp only [List.mem_singleton] at hr
      subst hr; exact computing_working)
    (last := terminated r) ⟨200, rfl, by simp [FailureCode]⟩ ⟨_, rfl, by simp [Dict.get?]⟩
    (by
      intro received rs h1 h2
      obtain ⟨h, n, cs, hraw, e⟩ := lpStudy_ready.built
      have hn' : 0 < n := by
        rw [e, (run_ext (worldInv_start h n) cs).nbScn] at hn; exact hn
      have hback := C14_roundtrip_complete_partial h n cs hn' hraw (e ▸ lpStudy_ready.clean)
        (e ▸ lpStudy_ready.complete)
      rw [← e] at hback
      rw [hback] at h1
      cases h1
      rw [show LPOptimizer.solve solver b lpStudy = .ok r from hr] at h2
      cases h2
      exact ⟨_, rfl, by simp [Dict.get?]⟩) []
  refine ⟨r', hr', ?_⟩
  rw [show LPOptimizer.solve solver b lpStudy = .ok r from hr] at hr'
  cases hr'
  exact h

/-! ### The theorems applied to concrete cases -/

/-- a server that gives the result after two polls -/
def goodServer : List Response := [queued 3, queued 1, computing, computing, terminated (demoResult "a"), computing]

example (study : Study) : ∃ reqs, RemoteOptimizer.solve ⟨"http://host", "tok"⟩ study goodServer = (reqs, .returned (demoResult "a")) ∧
    (∃ n job, reqs = requests study "http://host" "tok" job n) ∧
    ∀ i < reqs.length, ∃ code body, goodServer[i]? = some (.http code body) ∧ ¬ FailureCode code := by
  have h : RemoteOptimizer.solve ⟨"http://host", "tok"⟩ study goodServer =
      ((RemoteOptimizer.solve ⟨"http://host", "tok"⟩ study goodServer).1, .returned (demoResult "a")) :=
    Prod.ext rfl (session_returns study)
  obtain ⟨n, job, _, _, h1, _⟩ := C29_returns _ study goodServer h
  exact ⟨_, h, ⟨n, job, h1⟩, C30_no_result _ study goodServer h⟩

/-- more answers change nothing -/
example (study : Study) (more : List Response) : RemoteOptimizer.solve ⟨"http://host", "tok"⟩ study (goodServer ++ more) =
    RemoteOptimizer.solve ⟨"http://host", "tok"⟩ study goodServer :=
  C29_stops _ study goodServer more (by
    have h := session_returns study
    change (RemoteOptimizer.solve _ study goodServer).2 = _ at h
    rw [h]; simp)

/-- the job fails -/
example (study : Study) : (RemoteOptimizer.solve ⟨"http://host", "tok"⟩ study [queued 3, computing,
    .http 200 (some (.obj [("status", .str "ERROR"), ("message", .str "no memory")]))]).2 = .raised .serverError :=
  congrArg Prod.snd (C29_job_error ⟨"http://host", "tok"⟩ study (queued_ack 3) (queued_working 3) [computing] (by
    intro r hr
    simp only [List.mem_singleton] at hr
    subst hr; exact computing_working)
    (last := .http 200 (some (.obj [("status", .str "ERROR"), ("message", .str "no memory")])))
    ⟨200, rfl, by simp [FailureCode]⟩ ⟨_, rfl, by simp [Dict.get?]⟩
    (msg := .str "no memory") ⟨_, rfl, by simp [Dict.get?]⟩ [])

example (study : Study) : RemoteOptimizer.solve ⟨"http://host", "tok"⟩ study [.http 403 none, computing] =
    ([.post "http://host" study.toJson "tok"], .raised .valueError) :=
  C30_submission ⟨"http://host", "tok"⟩ study (code := 403) (by simp [FailureCode]) none [computing]

example (study : Study) := C30_poll ⟨"http://host", "tok"⟩ study (queued_ack 3) (queued_working 3) [computing] (by
    intro r hr
    simp only [List.mem_singleton] at hr
    subst hr; exact computing_working) (code := 500) (by simp [FailureCode]) none []

end Hadar.Props
