import Verif.Model.Share
import Verif.Props.Numeric

/-!
# C100: who owns the arrays
-/

namespace Hadar.Props

open Hadar

/-- what the API would make of the argument as it is now: the arrays of the caller are numpy arrays -/
def Arg.now (mem : Mem) : Arg → Option Raw
  | .value r => some r
  | .shared ref => (mem[ref]?).map .array

/-- Storing objects agrees with `create` on the data as it is at that time. -/
theorem C100_create (f : Factory) (mem : Mem) {a : Arg} {r : Raw} (ha : Arg.now mem a = some r) :
    (∀ v, f.create r = .ok v → ∃ x, f.hold mem a = .ok x ∧ x.read mem = some v) ∧
    ∀ e, f.create r = .error e → f.hold mem a = .error e := by
  cases a with
  | value r' =>
    cases ha
    constructor
    · intro v hv
      exact ⟨.own v, by simp [Factory.hold, hv], rfl⟩
    · intro e he
      simp [Factory.hold, he]
  | shared ref =>
    obtain ⟨x, hx, rfl⟩ := Option.map_eq_some_iff.1 ha
    constructor
    · intro v hv
      simp only [Factory.hold, hx]
      simp only [Factory.create, Factory.ofArray] at hv
      split_ifs at hv with h1 h2 h3 <;> cases hv
      · exact ⟨_, if_pos h1, by simp [Held.read, hx]⟩
      · exact ⟨_, by rw [if_neg h1, if_pos h2], by simp [Held.read, hx]⟩
      · exact ⟨_, by rw [if_neg h1, if_neg h2, if_pos h3], by simp [Held.read, hx]⟩
    · intro e he
      simp only [Factory.hold, hx]
      simp only [Factory.create, Factory.ofArray] at he
      split_ifs at he with h1 h2 h3 h4 <;> cases he
      · rw [if_neg h1, if_neg h2, if_neg h3, if_pos h4]
      · rw [if_neg h1, if_neg h2, if_neg h3, if_neg h4]

private theorem held_kept (f : Factory) (ops : List ShareOp) : ∀ (s : Shared) {k : ℕ} {x : Held},
    s.held[k]? = some x → (s.run f ops).held[k]? = some x := by
  induction ops with
  | nil => intro s k x h; exact h
  | cons op ops ih =>
    intro s k x h
    refine ih _ ?_
    cases op with
    | give a =>
      simp only [Shared.step]
      split
      · exact List.getElem?_append_left (List.getElem?_eq_some_iff.1 h).1 ▸ h
      · exact h
    | assign ref i q => exact h

private theorem mem_kept (f : Factory) (ops : List ShareOp) : ∀ (s : Shared) {ref : ℕ} {a : NdArray},
    s.mem[ref]? = some a → ∃ a', (s.run f ops).mem[ref]? = some a' ∧ a'.shape = a.shape := by
  induction ops with
  | nil => intro s ref a h; exact ⟨a, h, rfl⟩
  | cons op ops ih =>
    intro s ref a h
    obtain ⟨b, hb, hs⟩ : ∃ b, (s.step f op).mem[ref]? = some b ∧ b.shape = a.shape := by
      cases op with
      | give x =>
        simp only [Shared.step]
        split <;> exact ⟨a, h, rfl⟩
      | assign r i q =>
        simp only [Shared.step, List.getElem?_modify, h]
        by_cases hr : r = ref
        · exact ⟨a.assign i q, by simp [hr], rfl⟩
        · exact ⟨a, by simp [hr], rfl⟩
    obtain ⟨a', ha', hs'⟩ := ih _ hb
    exact ⟨a', ha', hs'.trans hs⟩

/-- The full claim is for all values given to the API; it is proved for those that are not numpy arrays. What was
given as a number, a list, a decoded JSON dict, a DataFrame or a Series is read as it was when it was given,
whatever is given afterwards and whatever the caller does with their arrays. For a numpy array the claim is
false, see `C100_shared` and `C100_refuted`. -/
theorem C100_partial (f : Factory) (s : Shared) {r : Raw} {v : NumVal} (hv : f.create r = .ok v)
    (ops : List ShareOp) :
    ∃ x, ((s.step f (.give (.value r))).run f ops).held[s.held.length]? = some x ∧
      x.read ((s.step f (.give (.value r))).run f ops).mem = some v := by
  refine ⟨.own v, held_kept f ops _ ?_, rfl⟩
  simp [Shared.step, Factory.hold, hv]

/-- **C100**, what happens with numpy arrays: the value follows the array. At any later time it is what the API
would make of the array as it is at that time. -/
theorem C100_shared (f : Factory) (s : Shared) {ref : ℕ} {a : NdArray} {v : NumVal} (ha : s.mem[ref]? = some a)
    (hv : f.create (.array a) = .ok v) (ops : List ShareOp) :
    ∃ x a' v', ((s.step f (.give (.shared ref))).run f ops).held[s.held.length]? = some x ∧
      ((s.step f (.give (.shared ref))).run f ops).mem[ref]? = some a' ∧
      x.read ((s.step f (.give (.shared ref))).run f ops).mem = some v' ∧ f.create (.array a') = .ok v' := by
  obtain ⟨x, hx, _⟩ := (C100_create f s.mem (a := .shared ref) (r := .array a)
    (by simp [Arg.now, ha])).1 v hv
  have h1 : s.step f (.give (.shared ref)) = { s with held := s.held ++ [x] } := by
    simp [Shared.step, hx]
  rw [h1]
  obtain ⟨a', ha', hs⟩ := mem_kept f ops ({ s with held := s.held ++ [x] }) ha
  obtain ⟨v', hv'⟩ : ∃ v', f.create (.array a') = .ok v' := by
    have h2 : ∃ v, (Factory.mk f.horizon f.nbScn).create (.array a) = .ok v := ⟨v, hv⟩
    rw [C03_accepts_iff] at h2
    cases h2 with
    | array _ h3 => exact (C03_accepts_iff f.horizon f.nbScn _).2 (.array _ (hs ▸ h3))
  refine ⟨x, a', v', held_kept f ops _ (by simp), ha', ?_, hv'⟩
  simp only [Factory.hold, ha] at hx
  simp only [Factory.create, Factory.ofArray] at hv'
  rw [hs] at hv'
  split_ifs at hx hv' <;> cases hx <;> cases hv' <;> simp [Held.read, ha']

/-- one array of the caller -/
def oneArray : Shared := ⟨[⟨[2], [10, 20], rfl⟩], []⟩

/-- **C100** does not hold for numpy arrays: a quantity without negative value is accepted; then the caller writes
in their array, and the stored quantity is negative at the first time step. -/
theorem C100_refuted : ∃ (x : Held) (v v' : NumVal),
    (oneArray.run ⟨2, 1⟩ [.give (.shared 0)]).held[0]? = some x ∧
    x.read (oneArray.run ⟨2, 1⟩ [.give (.shared 0)]).mem = some v ∧
    (∀ t : ℕ, t < 2 → ∃ q : ℚ, 0 ≤ q ∧ v.getitem 0 t = .ok q) ∧
    (oneArray.run ⟨2, 1⟩ [.give (.shared 0), .assign 0 0 (-1)]).held[0]? = some x ∧
    x.read (oneArray.run ⟨2, 1⟩ [.give (.shared 0), .assign 0 0 (-1)]).mem = some v' ∧
    v'.getitem 0 0 = .ok (-1) := by
  refine ⟨.shared .row 0 2 1, ⟨.row ⟨[2], [10, 20], rfl⟩, 2, 1⟩, ⟨.row ⟨[2], [-1, 20], rfl⟩, 2, 1⟩,
    by decide +kernel, by decide +kernel, ?_, by decide +kernel, by decide +kernel, rfl⟩
  intro t ht
  obtain rfl | rfl : t = 0 ∨ t = 1 := by omega
  · exact ⟨10, by norm_num, rfl⟩
  · exact ⟨20, by norm_num, rfl⟩

/-- the same array given as a list keeps its values -/
example : ((oneArray.run ⟨2, 1⟩ [.give (.shared 0), .give (.value (.array ⟨[2], [10, 20], rfl⟩)), .assign 0 0 (-1),
    .assign 0 7 5]).held.map
    fun x => x.read (oneArray.run ⟨2, 1⟩ [.give (.shared 0), .assign 0 0 (-1)]).mem) =
    [some ⟨.row ⟨[2], [-1, 20], rfl⟩, 2, 1⟩, some ⟨.row ⟨[2], [10, 20], rfl⟩, 2, 1⟩] := by decide +kernel

/-- the hypotheses of `C100_partial` and `C100_shared` -/
example : oneArray.mem[0]? = some ⟨[2], [10, 20], rfl⟩ ∧
    ∃ v, (Factory.mk 2 1).create (.array ⟨[2], [10, 20], rfl⟩) = .ok v := ⟨rfl, _, rfl⟩

/-! ### The theorems applied to concrete cases -/

example := C100_create ⟨2, 1⟩ oneArray.mem (a := .shared 0) (r := .array ⟨[2], [10, 20], rfl⟩) rfl

example := C100_partial ⟨2, 1⟩ oneArray (r := .array ⟨[2], [10, 20], rfl⟩) (v := ⟨.row ⟨[2], [10, 20], rfl⟩, 2, 1⟩) rfl
  [.assign 0 0 (-1)]

example := C100_shared ⟨2, 1⟩ oneArray (ref := 0) (a := ⟨[2], [10, 20], rfl⟩) (v := ⟨.row ⟨[2], [10, 20], rfl⟩, 2, 1⟩) rfl rfl
  [.assign 0 0 (-1)]

end Hadar.Props
