import Verif.Proofs.Sampling
import Verif.Props.Shuffler

/-!
# What the default sampler draws (C106)
-/

namespace Hadar.Props

open Spec

variable {σ : Type} {g : Rng σ} {w : PipeWorld σ} {env : ℕ → Rand σ} {nb size : ℕ} {order : List ℕ} {s : Shuffler}
  {st : σ}

/-- C106 (partial): with the default sampler, each timeline is given `nb` rows of its own data, at the indexes drawn from
the state the generator of the calling process is in for the first timeline of a chunk, and from the state the timeline
before leaves for others. The workers, their order and their own states have no part in what is drawn. Missing: the
draws of different chunks, and of different calls, are not independent, see `C106_together_refuted` and
`C106_again_refuted`. -/
theorem C106_partial (hg : Lawful g) (hk : (Dict.keys s).Nodup) (hsize : 0 < size)
    (ho : order.Perm (List.range (Pool.nbChunks size s.length))) {res : Dict String Rows}
    (h : (Shuffler.shuffleApart g w env size order s nb st).1 = .ok res) :
    res.keys = Dict.keys s ∧ ∃ state : ℕ → σ, (∀ p, p % size = 0 → state p = st) ∧
      ∀ p name src, s[p]? = some (name, src) → ∃ d rows, HasData g w (env p) src d ∧ res.get? name = some rows ∧
        rows.length = nb ∧ Picked d (draws g nb d.length (state p)) rows ∧
        ((p + 1) % size ≠ 0 → state (p + 1) = drawn g nb d.length (state p)) := by
  obtain ⟨h1, h2⟩ := shuffleApart_ok hg hk hsize ho h
  refine ⟨h1, stateAt g w nb env (List.zipIdx s) size st, fun p hp => stateAt_first _ st hp, fun p name src hp => ?_⟩
  obtain ⟨d, rows, h3, h4, h5, h6, h7⟩ := h2 p name src hp
  refine ⟨d, rows, h3, h4, h5, h6, fun hn => ?_⟩
  rw [stateAt_next hsize st hn (it := ((name, src), p)) (by rw [List.getElem?_zipIdx, hp]; simp), h7]

/-- with at most four timelines per process of the pool, each is alone in its chunk -/
theorem C106_alone {n processes : ℕ} (hn : 0 < n) (h : n ≤ 4 * processes) : Pool.chunkSize n processes = 1 := by
  unfold Pool.chunkSize
  rcases Nat.lt_or_eq_of_le h with h | rfl
  · rw [Nat.div_eq_of_lt h, Nat.mod_eq_of_lt h, if_neg hn.ne']
  · rw [Nat.div_self hn, Nat.mod_self, if_pos rfl]

/-- C106 refuted: two timelines with as many rows that come first in their chunks (so any two, when there are at most
four per process) are always given their rows at the same indexes: they are not shuffled against each other -/
theorem C106_together_refuted (hg : Lawful g) (hk : (Dict.keys s).Nodup) (hsize : 0 < size)
    (ho : order.Perm (List.range (Pool.nbChunks size s.length))) {res : Dict String Rows}
    (h : (Shuffler.shuffleApart g w env size order s nb st).1 = .ok res) {p q : ℕ} {a b : String} {x y : Source}
    {d e : Rows} (hp : s[p]? = some (a, x)) (hq : s[q]? = some (b, y)) (hx : x.data = some d) (hy : y.data = some e)
    (hde : d.length = e.length) (hp0 : p % size = 0) (hq0 : q % size = 0) :
    ∃ ix rows rows', res.get? a = some rows ∧ res.get? b = some rows' ∧ Picked d ix rows ∧ Picked e ix rows' := by
  obtain ⟨-, state, h1, h2⟩ := C106_partial hg hk hsize ho h
  obtain ⟨d', rows, h3, h4, -, h5, -⟩ := h2 p a x hp
  obtain ⟨e', rows', h6, h7, -, h8, -⟩ := h2 q b y hq
  rw [h1 p hp0] at h5
  rw [h1 q hq0] at h8
  have e1 : d' = d := by
    rcases h3 with h3 | ⟨h3, -⟩ <;> rw [hx] at h3 <;> simp_all
  have e2 : e' = e := by
    rcases h6 with h6 | ⟨h6, -⟩ <;> rw [hy] at h6 <;> simp_all
  subst e1 e2
  rw [← hde] at h8
  exact ⟨_, rows, rows', h4, h7, h5, h8⟩

/-- C106 refuted: a second call gives the scenarios of the first one again, whatever the workers, as the generator of
the calling process has not moved -/
theorem C106_again_refuted (hr : AllRaw s) (hsize : 0 < size)
    (ho : order.Perm (List.range (Pool.nbChunks size s.length))) {order' : List ℕ}
    (ho' : order'.Perm (List.range (Pool.nbChunks size s.length))) {w' : PipeWorld σ} {env' : ℕ → Rand σ}
    {st' : σ} {res : Dict String Rows} (h : Shuffler.shuffleApart g w env size order s nb st = (.ok res, st')) :
    (Shuffler.shuffleApart g w' env' size order' s nb st').1 = .ok res := by
  have hst : st' = st := (congrArg Prod.snd h).symm
  subst hst
  exact shuffleApart_again hr hsize ho ho' (congrArg Prod.fst h)

/-! ### A concrete case -/

/-- a generator that counts: it draws the numbers that follow its state, modulo the number of rows -/
def counter : Rng ℕ where
  seed n := n
  count _ n s := (n, s)
  randint low high size s := ((List.range size).map fun i => low + ((s + i : ℕ) : ℤ) % (high - low), s + size)

theorem counter_lawful : Lawful counter where
  count_le := by intro f n s; simp [counter]
  randint_length := by intro low high size s _; simp [counter]
  randint_mem := by
    intro low high size s h z hz
    simp only [counter, List.mem_map, List.mem_range] at hz
    obtain ⟨i, -, rfl⟩ := hz
    have h1 := Int.emod_nonneg ((s + i : ℕ) : ℤ) (b := high - low) (by omega)
    have h2 := Int.emod_lt_of_pos ((s + i : ℕ) : ℤ) (b := high - low) (by omega)
    omega

/-- `Shuffler().add_data("sun", ...).add_data("wind", ...).add_data("load", ...)` -/
def threeData : Shuffler := registerAll (σ := ℕ) [(PipeWorld.empty, .data "sun" [[some 1], [some 2], [some 3]]),
  (PipeWorld.empty, .data "wind" [[some 10], [some 20], [some 30]]),
  (PipeWorld.empty, .data "load" [[some 7], [some 8], [some 9]])] []

/-- one timeline per chunk: the same indexes 1, 2, 0, 1 for all -/
theorem three_alone : Shuffler.shuffleApart counter PipeWorld.empty (fun _ => rand 0) 1 [2, 0, 1] threeData 4 1 =
    (.ok [("sun", [[some 2], [some 3], [some 1], [some 2]]), ("wind", [[some 20], [some 30], [some 10], [some 20]]),
      ("load", [[some 8], [some 9], [some 7], [some 8]])], 1) := by rfl

/-- two per chunk: "wind" goes on where "sun" stops, "load" has the indexes of "sun" -/
theorem three_pairs : Shuffler.shuffleApart counter PipeWorld.empty (fun _ => rand 0) 2 [1, 0] threeData 4 1 =
    (.ok [("sun", [[some 2], [some 3], [some 1], [some 2]]), ("wind", [[some 30], [some 10], [some 20], [some 30]]),
      ("load", [[some 8], [some 9], [some 7], [some 8]])], 1) := by rfl

theorem three_raw : AllRaw threeData := fun p hp => Option.isSome_iff_exists.1 ((by decide : ∀ p ∈ threeData, p.2.data.isSome = true) p hp)

example := C106_partial counter_lawful (s := threeData) (by decide) (by decide) (by decide) (congrArg Prod.fst three_pairs)

example := C106_together_refuted counter_lawful (s := threeData) (by decide) (by decide) (by decide)
  (congrArg Prod.fst three_pairs) (p := 0) (q := 2) rfl rfl rfl rfl rfl rfl rfl

example := C106_again_refuted (s := threeData) three_raw (by decide) (by decide) (order' := [0, 1]) (by decide)
  (w' := PipeWorld.empty) (env' := fun _ => rand 5) three_pairs

example : Pool.chunkSize 3 2 = 1 ∧ Pool.chunkSize 9 2 = 2 ∧ Pool.chunkSize 16 2 = 2 := by decide

end Hadar.Props
