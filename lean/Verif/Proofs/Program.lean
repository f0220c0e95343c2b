import Verif.Spec.Program
import Verif.Props.Accept
import Verif.Props.Handles

/-!
# Lemmas for C102: calls, the study they leave, and its result
-/

namespace Hadar

open Spec World Props

variable {h n : ℕ} {before later : List Call} {s : Study} {solver : Solver} {b : Benchmark} {r : Result}

theorem Spec.Accepted.step {c : Call} (hp : Accepted h n before c later s) :
    ∃ hd, World.step c ((start h n).run before) = (.ok hd, (start h n).run (before ++ [c])) := by
  obtain ⟨hd, e⟩ := hp.accepted
  refine ⟨hd, Prod.ext e ?_⟩
  simp [World.run, List.foldl_append, after]

theorem Spec.Accepted.ext {c : Call} (hp : Accepted h n before c later s) : StudyExt ((start h n).run (before ++ [c])).study s := by
  have := C09_kept h n (before ++ [c]) later
  rwa [List.append_assoc, List.singleton_append, ← hp.study] at this

theorem Spec.Accepted.sizes {c : Call} (hp : Accepted h n before c later s) :
    s.horizon = h ∧ s.nbScn = n ∧ ((start h n).run before).study.horizon = h ∧ ((start h n).run before).study.nbScn = n := by
  have e1 := C09_kept h n [] (before ++ c :: later)
  have e2 := C09_kept h n [] before
  rw [List.nil_append, ← hp.study] at e1
  exact ⟨e1.horizon, e1.nbScn, e2.horizon, e2.nbScn⟩

theorem Spec.Accepted.built {c : Call} (hp : Accepted h n before c later s) : Built s := ⟨h, n, _, hp.raw, hp.study⟩

theorem Spec.Accepted.rawCall {c : Call} (hp : Accepted h n before c later s) : RawCall c :=
  hp.raw c (List.mem_append_right _ List.mem_cons_self)

theorem hasNode_changed {s s' : Study} {g d : String} {m m' : InputNode} (hc : OnlyNodeChanged s s' g d m m') : HasNode s' g d m' := by
  obtain ⟨pre, post, npre, npost, _, rfl⟩ := hc
  exact ⟨⟨npre ++ (d, m') :: npost⟩, by simp, by simp⟩

theorem get_prefix {α : Type} {l l' : List α} {a : α} (hx : l ++ [a] <+: l') : l'[l.length]? = some a := by
  obtain ⟨m, rfl⟩ := hx
  simp

theorem stores_val {q : Raw} {v : NumVal} (hs : Stores h n q v) {k t : ℕ} (hk : k < n) (ht : t < h) : Means h n q k t (val v k t) := by
  obtain ⟨x, e, hm⟩ := hs k t hk ht
  unfold Spec.val
  rw [e]
  exact hm

theorem meansOr_getD {given : Option Raw} {x q : ℚ} {k t : ℕ} (hm : Means h n (given.getD (.num x)) k t q) : MeansOr h n given x k t q := by
  cases given with
  | some y => exact hm
  | none => cases hm; rfl

theorem Spec.SolvedBy.ready (hs : SolvedBy solver b s r) (hb : Built s) : Ready s :=
  ready_of_solved hb hs.sources hs.scenarios hs.steps hs.solved

theorem Spec.SolvedBy.result (hs : SolvedBy solver b s r) (hb : Built s) : ∃ X : Vals, ∃ b', r = resultAll s X b' :=
  ⟨_, _, Ready.result (hs.ready hb) hs.solved⟩

theorem Spec.SolvedBy.bounds (hs : SolvedBy solver b s r) (hb : Built s) {k : ℕ} (hk : k < s.nbScn) : Bounds s k (dispatchOf s r k) :=
  C18_bounds (hs.ready hb) hs.solved hk fun st lg hl => (hs.answers k hk st lg hl).1

theorem cellAt_get {α : Type} {l : List α} {i : ℕ} {o : α} (ho : l[i]? = some o) (f : α → NdArray) (k t : ℕ) : cellAt l i f k t = cell (f o) k t := by
  simp [cellAt, ho]

end Hadar
