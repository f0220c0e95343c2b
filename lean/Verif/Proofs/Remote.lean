import Verif.Spec.Remote
import Verif.Proofs.Base

/-! # Proofs about remote solving -/

namespace Hadar

open Spec Remote

theorem field_iff {j : Json} {k : String} {v : Json} : field j k = .ok v ↔ HasField j k v := by
  unfold field HasField Json.item
  cases j <;> simp [Dict.getE]
  case obj o => cases Dict.get? o k <;> simp

theorem Spec.HasField.unique {j : Json} {k : String} {v v' : Json} (h : HasField j k v)
    (h' : HasField j k v') : v = v' := by
  rw [← field_iff] at h h'
  rw [h] at h'; cases h'; rfl

theorem receive_iff {r : Response} {j : Json} : receive r = .ok j ↔ Carries r j := by
  unfold receive Carries FailureCode
  cases r with
  | fail e => simp
  | http code body =>
    unfold checkCode
    simp only [bind, Except.bind]
    by_cases h1 : code = 404
    · subst h1; simp
    by_cases h2 : code = 403
    · subst h2; simp
    by_cases h3 : code = 500
    · subst h3; simp
    simp only [h1, h2, h3, if_false]
    cases body <;> simp [pure, Except.pure, h1, h2, h3]

theorem receive_failure {code : ℕ} {body : Option Json} :
    (code = 404 ∨ code = 403 → receive (.http code body) = .error .valueError) ∧
    (code = 500 → receive (.http code body) = .error .ioError) := by
  refine ⟨?_, ?_⟩
  · rintro (rfl | rfl) <;> rfl
  · rintro rfl; rfl

theorem inProgress_iff {j : Json} : inProgress j = true ↔ j = .str "QUEUED" ∨ j = .str "COMPUTING" := by
  cases j <;> simp [inProgress]

theorem isStr_iff {s : String} {j : Json} : isStr s j = true ↔ j = .str s := by
  cases j <;> simp [isStr]

theorem unfinished_iff {j st : Json} (h : field j "status" = .ok st) :
    Unfinished j ↔ inProgress st = true := by
  rw [inProgress_iff]
  unfold Unfinished
  rw [field_iff] at h
  constructor
  · rintro (h' | h')
    · exact Or.inl (h.unique h')
    · exact Or.inr (h.unique h')
  · rintro (rfl | rfl)
    · exact Or.inl h
    · exact Or.inr h

theorem not_unfinished_of_error {j : Json} {e : PyErr} (h : field j "status" = .error e) :
    ¬ Unfinished j := by
  rintro (h' | h') <;> (rw [← field_iff, h] at h'; cases h')

theorem finish_returned {j : Json} {r : Result} (h : finish j = .returned r) :
    ¬ HasField j "status" (.str "ERROR") ∧
    ∃ res, HasField j "result" res ∧ (Result.fromJson res).1 = .ok r := by
  unfold finish at h
  cases hs : field j "status" with
  | error e => rw [hs] at h; cases h
  | ok st =>
    rw [hs] at h
    dsimp only at h
    split at h
    · cases hm : field j "message" <;> rw [hm] at h <;> cases h
    · rename_i hne
      refine ⟨fun he => hne (isStr_iff.mpr ((field_iff.mp hs).unique he)), ?_⟩
      cases hr : field j "result" with
      | error e => rw [hr] at h; cases h
      | ok res =>
        rw [hr] at h
        dsimp only at h
        refine ⟨res, field_iff.mp hr, ?_⟩
        cases hf : (Result.fromJson res).1 with
        | error e => rw [hf] at h; cases h
        | ok r' => rw [hf] at h; cases h; rfl

theorem poll_returned {url token : String} {job : Json} {rs : List Response} {resp : Json}
    {reqs : List Request} {r : Result} (h : poll url job token resp rs = (reqs, .returned r)) :
    ∃ n final, reqs = List.replicate n (.get url job token) ∧ ¬ Unfinished final ∧
      ¬ HasField final "status" (.str "ERROR") ∧
      (∃ res, HasField final "result" res ∧ (Result.fromJson res).1 = .ok r) ∧
      ((n = 0 ∧ final = resp) ∨ ∃ m, n = m + 1 ∧ Unfinished resp ∧
        (∀ i < m, ∃ x j, rs[i]? = some x ∧ Carries x j ∧ Unfinished j) ∧
        ∃ x, rs[m]? = some x ∧ Carries x final) := by
  induction rs generalizing resp reqs with
  | nil =>
    unfold poll at h
    cases hs : field resp "status" with
    | error e => rw [hs] at h; cases h
    | ok st =>
      rw [hs] at h
      dsimp only at h
      split at h
      · cases h
      · rename_i hn
        rw [Prod.mk.injEq] at h
        obtain ⟨rfl, h⟩ := h
        obtain ⟨he, hr⟩ := finish_returned h
        exact ⟨0, resp, rfl, fun hu => hn ((unfinished_iff hs).mp hu), he, hr, Or.inl ⟨rfl, rfl⟩⟩
  | cons x xs ih =>
    unfold poll at h
    cases hs : field resp "status" with
    | error e => rw [hs] at h; cases h
    | ok st =>
      rw [hs] at h
      dsimp only at h
      split at h
      · rename_i hp
        cases hx : receive x with
        | error e => rw [hx] at h; cases h
        | ok resp' =>
          rw [hx] at h
          dsimp only at h
          cases hd : display resp' with
          | error e => rw [hd] at h; cases h
          | ok _ =>
            rw [hd] at h
            dsimp only at h
            rw [Prod.mk.injEq] at h
            obtain ⟨rfl, h⟩ := h
            obtain ⟨n, final, h1, h2, h3, h4, h5⟩ := ih (reqs := (poll url job token resp' xs).1)
              (Prod.ext rfl h)
            refine ⟨n + 1, final, by rw [h1]; rfl, h2, h3, h4, Or.inr ⟨n, rfl,
              (unfinished_iff hs).mpr hp, ?_⟩⟩
            rcases h5 with ⟨rfl, rfl⟩ | ⟨m, rfl, hu, hw, hf⟩
            · exact ⟨by simp, x, by simp, receive_iff.mp hx⟩
            · refine ⟨?_, by simpa using hf⟩
              intro i hi
              cases i with
              | zero => exact ⟨x, resp', by simp, receive_iff.mp hx, hu⟩
              | succ i =>
                obtain ⟨y, j, hy, hc⟩ := hw i (by omega)
                exact ⟨y, j, by simpa using hy, hc⟩
      · rename_i hn
        rw [Prod.mk.injEq] at h
        obtain ⟨rfl, h⟩ := h
        obtain ⟨he, hr⟩ := finish_returned h
        exact ⟨0, resp, rfl, fun hu => hn ((unfinished_iff hs).mp hu), he, hr, Or.inl ⟨rfl, rfl⟩⟩

/-- one turn of the loop on an answer that says the job goes on -/
theorem poll_step {url token : String} {job resp : Json} {x : Response} {xs : List Response}
    (hu : Unfinished resp) {j : Json} (hx : Carries x j)
    (hq : (HasField j "status" (.str "QUEUED") ∧ ∃ q, HasField j "progress" (.num q)) ∨
      (∃ st, HasField j "status" st ∧ st ≠ .str "QUEUED")) :
    poll url job token resp (x :: xs) =
      (.get url job token :: (poll url job token j xs).1, (poll url job token j xs).2) := by
  have hst : ∃ st, field resp "status" = .ok st := by
    rcases hu with h | h <;> exact ⟨_, field_iff.mpr h⟩
  obtain ⟨st, hs⟩ := hst
  have hd : display j = .ok () := by
    unfold display
    rcases hq with ⟨h1, q, h2⟩ | ⟨st', h1, h2⟩
    · rw [field_iff.mpr h1]
      simp only [bind, Except.bind]
      rw [if_pos (isStr_iff.mpr rfl), field_iff.mpr h2]
      rfl
    · rw [field_iff.mpr h1]
      simp only [bind, Except.bind]
      rw [if_neg (by rw [isStr_iff]; exact h2)]
      rfl
  rw [poll, hs]
  dsimp only
  rw [if_pos ((unfinished_iff hs).mp hu), receive_iff.mpr hx]
  dsimp only
  rw [hd]

theorem poll_fail {url token : String} {job resp : Json} {x : Response} {xs : List Response}
    (hu : Unfinished resp) {e : PyErr} (hx : receive x = .error e) :
    poll url job token resp (x :: xs) = ([.get url job token], .raised e) := by
  have hst : ∃ st, field resp "status" = .ok st := by
    rcases hu with h | h <;> exact ⟨_, field_iff.mpr h⟩
  obtain ⟨st, hs⟩ := hst
  rw [poll, hs]
  dsimp only
  rw [if_pos ((unfinished_iff hs).mp hu), hx]

theorem poll_nil {url token : String} {job resp : Json} (hu : Unfinished resp) :
    poll url job token resp [] = ([.get url job token], .waiting) := by
  have hst : ∃ st, field resp "status" = .ok st := by
    rcases hu with h | h <;> exact ⟨_, field_iff.mpr h⟩
  obtain ⟨st, hs⟩ := hst
  rw [poll, hs]
  dsimp only
  rw [if_pos ((unfinished_iff hs).mp hu)]

theorem poll_done {url token : String} {job resp st : Json} (xs : List Response)
    (hst : HasField resp "status" st) (hu : ¬ Unfinished resp) :
    poll url job token resp xs = ([], finish resp) := by
  have hs := field_iff.mpr hst
  have hn : ¬ inProgress st = true := fun h => hu ((unfinished_iff hs).mpr h)
  cases xs <;> (rw [poll, hs]; dsimp only; rw [if_neg hn])

/-- through `n` answers that say the job goes on -/
theorem poll_working {url token : String} {job resp : Json} (hu : Unfinished resp)
    (l xs : List Response) (hl : ∀ r ∈ l, StillWorking r) :
    ∃ resp', Unfinished resp' ∧ poll url job token resp (l ++ xs) =
      (List.replicate l.length (.get url job token) ++ (poll url job token resp' xs).1,
        (poll url job token resp' xs).2) := by
  induction l generalizing resp with
  | nil => exact ⟨resp, hu, by simp⟩
  | cons x l ih =>
    obtain ⟨j, hc, hj⟩ := hl x List.mem_cons_self
    have hu' : Unfinished j := by
      rcases hj with ⟨h, _⟩ | h
      · exact Or.inl h
      · exact Or.inr h
    obtain ⟨resp', hr, e⟩ := ih hu' (fun r hr => hl r (List.mem_cons_of_mem _ hr))
    refine ⟨resp', hr, ?_⟩
    rw [List.cons_append, poll_step hu hc, e]
    · rfl
    · rcases hj with h | h
      · exact Or.inl h
      · exact Or.inr ⟨_, h, by simp⟩

theorem start_ok {j job p : Json} (h1 : HasField j "job" job) (h2 : HasField j "progress" p) :
    start j = .ok job := by
  unfold start
  rw [field_iff.mpr h1, field_iff.mpr h2]
  rfl

/-- once `solve_remote` does not wait any more, later answers do not matter -/
theorem poll_append {url token : String} {job resp : Json} (l xs : List Response)
    (h : (poll url job token resp l).2 ≠ .waiting) :
    poll url job token resp (l ++ xs) = poll url job token resp l := by
  induction l generalizing resp with
  | nil =>
    rw [List.nil_append]
    rw [poll] at h
    cases hs : field resp "status" with
    | error e => cases xs <;> simp [poll, hs]
    | ok st =>
      rw [hs] at h
      dsimp only at h
      split at h
      · exact absurd rfl h
      · rename_i hn
        cases xs <;> simp [poll, hs, hn]
  | cons x l ih =>
    rw [List.cons_append]
    rw [poll] at h ⊢
    rw [poll]
    cases hs : field resp "status" with
    | error e => rfl
    | ok st =>
      rw [hs] at h
      dsimp only at h ⊢
      split at h
      · rename_i hp
        rw [if_pos hp, if_pos hp]
        cases hx : receive x with
        | error e => rfl
        | ok resp' =>
          rw [hx] at h
          dsimp only at h ⊢
          cases hd : display resp' with
          | error e => rfl
          | ok _ =>
            rw [hd] at h
            dsimp only at h ⊢
            rw [ih h]
      · rename_i hn
        rw [if_neg hn, if_neg hn]

theorem poll_requests (url token : String) (job resp : Json) (rs : List Response) :
    ∃ n, n ≤ rs.length + 1 ∧ (poll url job token resp rs).1 = List.replicate n (.get url job token) := by
  induction rs generalizing resp with
  | nil =>
    rw [poll]
    cases field resp "status" with
    | error e => exact ⟨0, by simp, rfl⟩
    | ok st =>
      dsimp only
      split
      · exact ⟨1, by simp, rfl⟩
      · exact ⟨0, by simp, rfl⟩
  | cons r rs ih =>
    rw [poll]
    cases field resp "status" with
    | error e => exact ⟨0, by simp, rfl⟩
    | ok st =>
      dsimp only
      split
      · cases receive r with
        | error e => exact ⟨1, by simp, rfl⟩
        | ok resp' =>
          dsimp only
          cases display resp' with
          | error e => exact ⟨1, by simp, rfl⟩
          | ok _ =>
            obtain ⟨n, hn, e⟩ := ih resp'
            refine ⟨n + 1, by simpa using hn, ?_⟩
            dsimp only
            rw [e, List.replicate_succ]
      · exact ⟨0, by simp, rfl⟩

end Hadar
