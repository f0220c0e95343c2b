import Verif.Proofs.Fair
import Verif.Props.Sampling

/-! # C117: sampled scenarios are like the data -/

namespace Hadar.Props

open Hadar Spec

variable {Ω : Type} [Fintype Ω]

/-- Calls of `shuffle` with the default sampler, for each thing that may happen: `res ω` is what is obtained. The generator
of the calling process is ready to draw fairly among `n` scenarios. -/
structure FairShuffles (w : Ω → ℚ) (s : Shuffler) (size nb n : ℕ) (res : Ω → Dict String Rows) : Prop where
  keys : (Dict.keys s).Nodup
  chunks : 0 < size
  runs : ∃ (σ : Type) (g : Ω → Rng σ) (world : Ω → PipeWorld σ) (env : Ω → ℕ → Rand σ) (order : Ω → List ℕ) (st : Ω → σ),
    (∀ ω, Lawful (g ω)) ∧ (∀ ω, (order ω).Perm (List.range (Pool.nbChunks size s.length))) ∧
    (∀ ω, (Shuffler.shuffleApart (g ω) (world ω) (env ω) size (order ω) s nb (st ω)).1 = .ok (res ω)) ∧
    FairIndexes w n nb fun ω => draws (g ω) nb n (st ω)

theorem FairShuffles.picked {w : Ω → ℚ} {s : Shuffler} {size nb n : ℕ} {res : Ω → Dict String Rows}
    (h : FairShuffles w s size nb n res) : ∃ I : Ω → List ℤ, FairIndexes w n nb I ∧
      ∀ p a x d, s[p]? = some (a, x) → x.data = some d → d.length = n → p % size = 0 →
        ∃ rows : Ω → Rows, ∀ ω, (res ω).get? a = some (rows ω) ∧ (rows ω).length = nb ∧ Picked d (I ω) (rows ω) := by
  obtain ⟨σ, g, world, env, order, st, h1, h2, h3, h4⟩ := h.runs
  refine ⟨_, h4, fun p a x d hp hx hn hp0 => ?_⟩
  have : ∀ ω, ∃ rows, (res ω).get? a = some rows ∧ rows.length = nb ∧ Picked d (draws (g ω) nb n (st ω)) rows := by
    intro ω
    obtain ⟨-, state, h5, h6⟩ := C106_partial (h1 ω) h.keys h.chunks (h2 ω) (h3 ω)
    obtain ⟨d', rows, h7, h8, h9, h10, -⟩ := h6 p a x hp
    have e1 : d' = d := by
      rcases h7 with h7 | ⟨h7, -⟩ <;> rw [hx] at h7 <;> simp_all
    subst e1
    rw [h5 p hp0, hn] at h10
    exact ⟨rows, h8, h9, h10⟩
  choose rows hr using this
  exact ⟨rows, hr⟩

/-- C117, for the timelines that come first in a chunk (all of them when there are at most four per process, see
`C106_alone`): whatever number is read off a scenario, each of the scenarios drawn has on average the average of the data;
the average over the scenarios drawn has the average of the data as its mean, and is the nearer to it the more scenarios
are drawn. -/
theorem C117_partial {w : Ω → ℚ} {s : Shuffler} {size nb : ℕ} {res : Ω → Dict String Rows} {p : ℕ} {a : String} {x : Source}
    {d : Rows} (h : FairShuffles w s size nb d.length res) (hp : s[p]? = some (a, x)) (hx : x.data = some d)
    (hp0 : p % size = 0) (hd : d ≠ []) :
    ∃ rows : Ω → Rows, (∀ ω, (res ω).get? a = some (rows ω) ∧ (rows ω).length = nb) ∧
      ∀ φ : List Val → ℚ,
        (∀ k, k < nb → mean w (fun ω => φ ((rows ω).getD k [])) = average φ d) ∧
        (0 < nb → mean w (fun ω => average φ (rows ω)) = average φ d ∧
          mean w (fun ω => (average φ (rows ω) - average φ d) ^ 2) = spread φ d / nb) := by
  obtain ⟨I, hI, hrows⟩ := h.picked
  obtain ⟨rows, hr⟩ := hrows p a x d hp hx rfl hp0
  have hp := fun ω => (hr ω).2.2
  exact ⟨rows, fun ω => ⟨(hr ω).1, (hr ω).2.1⟩, fun φ => ⟨fun k hk => fair_mean hI hp hd φ hk,
    fun hnb => ⟨fair_average hI hp hd hnb φ, fair_spread hI hp hd hnb φ⟩⟩⟩

/-- C117: with enough scenarios, the average over those drawn is within `ε` of that of the data but for a chance as small as
wanted -/
theorem C117_enough_partial {w : Ω → ℚ} {s : Shuffler} {size nb : ℕ} {res : Ω → Dict String Rows} {p : ℕ} {a : String}
    {x : Source} {d : Rows} (h : FairShuffles w s size nb d.length res) (hp : s[p]? = some (a, x)) (hx : x.data = some d)
    (hp0 : p % size = 0) (hd : d ≠ []) (φ : List Val → ℚ) {ε δ : ℚ} (hε : 0 < ε) (hδ : 0 < δ)
    (hnb : spread φ d / (ε ^ 2 * δ) ≤ nb) (hnb0 : 0 < nb) :
    ∃ rows : Ω → Rows, (∀ ω, (res ω).get? a = some (rows ω) ∧ (rows ω).length = nb) ∧
      chance w (fun ω => ε ≤ |average φ (rows ω) - average φ d|) ≤ δ := by
  obtain ⟨rows, h1, h2⟩ := C117_partial h hp hx hp0 hd
  obtain ⟨I, hI, -⟩ := h.picked
  refine ⟨rows, h1, le_trans (chebyshev hI.weights _ _ hε) ?_⟩
  rw [((h2 φ).2 hnb0).2]
  have hn : (0 : ℚ) < nb := by exact_mod_cast hnb0
  have he : 0 < ε ^ 2 := by positivity
  rw [div_le_iff₀ (mul_pos he hδ)] at hnb
  rw [div_le_iff₀ he, div_le_iff₀ hn]
  linarith

/-- C117: two timelines with as many scenarios that come first in their chunks go together: what is drawn of one goes with
what is drawn of the other as in the data, row by row -/
theorem C117_together {w : Ω → ℚ} {s : Shuffler} {size nb : ℕ} {res : Ω → Dict String Rows} {p q : ℕ} {a b : String}
    {x y : Source} {d e : Rows} (h : FairShuffles w s size nb d.length res) (hp : s[p]? = some (a, x))
    (hq : s[q]? = some (b, y)) (hx : x.data = some d) (hy : y.data = some e) (hde : e.length = d.length)
    (hp0 : p % size = 0) (hq0 : q % size = 0) (hd : d ≠ []) :
    ∃ rows rows' : Ω → Rows, (∀ ω, (res ω).get? a = some (rows ω) ∧ (res ω).get? b = some (rows' ω)) ∧
      ∀ (φ ψ : List Val → ℚ) k, k < nb → mean w (fun ω => φ ((rows ω).getD k []) * ψ ((rows' ω).getD k [])) =
        (∑ i ∈ Finset.range d.length, φ (d.getD i []) * ψ (e.getD i [])) / d.length := by
  obtain ⟨I, hI, hrows⟩ := h.picked
  obtain ⟨rows, hr⟩ := hrows p a x d hp hx rfl hp0
  obtain ⟨rows', hr'⟩ := hrows q b y e hq hy hde hq0
  exact ⟨rows, rows', fun ω => ⟨(hr ω).1, (hr' ω).1⟩, fun φ ψ k hk =>
    fair_together hI (fun ω => (hr ω).2.2) (fun ω => (hr' ω).2.2) hd φ ψ hk⟩

/-! ### Concrete cases -/

/-- the first number of a scenario -/
def firstNumber (row : List Val) : ℚ := (row.head?.bind id).getD 0

/-- fair draws of four scenarios for three timelines of three scenarios -/
theorem three_fair : ∃ (Ω : Type) (_ : Fintype Ω) (w : Ω → ℚ) (res : Ω → Dict String Rows),
    FairShuffles w threeData 1 4 3 res := by
  have hall : ∀ l ∈ listsOf (Finset.Ico (0 : ℤ) (3 : ℕ)) 4, ((Shuffler.shuffleApart (indexTape l) PipeWorld.empty
      (fun _ => ⟨(), fun _ => 0⟩) 1 [2, 0, 1] threeData 4 ()).1.toOption).isSome = true := by decide +kernel
  have hres : ∀ ω : {l // l ∈ listsOf (Finset.Ico (0 : ℤ) (3 : ℕ)) 4}, ∃ r, (Shuffler.shuffleApart (indexTape ω.1)
      PipeWorld.empty (fun _ => ⟨(), fun _ => 0⟩) 1 [2, 0, 1] threeData 4 ()).1 = .ok r := fun ω => by
    obtain ⟨r, hr⟩ := Option.isSome_iff_exists.mp (hall ω.1 ω.2)
    exact ⟨r, ok_of_toOption hr⟩
  choose res hres using hres
  refine ⟨{l // l ∈ listsOf (Finset.Ico (0 : ℤ) (3 : ℕ)) 4}, inferInstance, fun _ => (1 / ((3 : ℕ) : ℚ)) ^ 4, res,
    by decide, by decide, Unit, fun ω => indexTape ω.1, fun _ => PipeWorld.empty, fun _ _ => ⟨(), fun _ => 0⟩,
    fun _ => [2, 0, 1], fun _ => (), fun ω => indexTape_lawful _,
    fun _ => (by decide : [2, 0, 1].Perm (List.range (Pool.nbChunks 1 threeData.length))), hres, ?_⟩
  have e : (fun ω : {l // l ∈ listsOf (Finset.Ico (0 : ℤ) (3 : ℕ)) 4} => draws (indexTape ω.1) 4 3 ()) = fun ω => ω.1 := by
    funext ω
    obtain ⟨h1, h2⟩ := mem_listsOf.mp ω.2
    have := indexTape_draws (l := ω.1) (n := 3) fun z hz => Finset.mem_Ico.mp (h2 z hz)
    rw [h1] at this
    exact this
  rw [e]
  exact fair_exists (by decide) 4

/-- C117 refuted: the sun and the wind drawn for a scenario are not apart: the mean of their product is not the product of
their means -/
theorem C117_refuted : ∃ (Ω : Type) (_ : Fintype Ω) (w : Ω → ℚ) (res : Ω → Dict String Rows) (sun wind : Ω → Rows),
    FairShuffles w threeData 1 4 3 res ∧ (∀ ω, (res ω).get? "sun" = some (sun ω) ∧ (res ω).get? "wind" = some (wind ω)) ∧
    mean w (fun ω => firstNumber ((sun ω).getD 0 [])) = 2 ∧ mean w (fun ω => firstNumber ((wind ω).getD 0 [])) = 20 ∧
    mean w (fun ω => firstNumber ((sun ω).getD 0 []) * firstNumber ((wind ω).getD 0 [])) = 140 / 3 := by
  obtain ⟨Ω, i, w, res, h⟩ := three_fair
  obtain ⟨sun, wind, h1, h2⟩ := C117_together (d := [[some 1], [some 2], [some 3]]) (e := [[some 10], [some 20], [some 30]])
    h (p := 0) (q := 1) rfl rfl rfl rfl rfl rfl rfl (by simp)
  obtain ⟨sun', h3, h4⟩ := C117_partial (d := [[some 1], [some 2], [some 3]]) h (p := 0) rfl rfl rfl (by simp)
  obtain ⟨wind', h5, h6⟩ := C117_partial (d := [[some 10], [some 20], [some 30]]) h (p := 1) rfl rfl rfl (by simp)
  have es : sun = sun' := funext fun ω => Option.some.inj ((h1 ω).1.symm.trans (h3 ω).1)
  have ew : wind = wind' := funext fun ω => Option.some.inj ((h1 ω).2.symm.trans (h5 ω).1)
  refine ⟨Ω, i, w, res, sun, wind, h, h1, ?_, ?_, ?_⟩
  · rw [es, (h4 firstNumber).1 0 (by decide)]; decide +kernel
  · rw [ew, (h6 firstNumber).1 0 (by decide)]; decide +kernel
  · rw [h2 firstNumber firstNumber 0 (by decide)]; decide +kernel

/-- the average sun of the scenarios drawn has mean 2, and mean square of the distance to it 1 / 6 -/
example : ∃ (Ω : Type) (_ : Fintype Ω) (w : Ω → ℚ) (sun : Ω → Rows), mean w (fun ω => average firstNumber (sun ω)) = 2 ∧
    mean w (fun ω => (average firstNumber (sun ω) - 2) ^ 2) = 1 / 6 := by
  obtain ⟨Ω, i, w, res, h⟩ := three_fair
  obtain ⟨sun, h3, h4⟩ := C117_partial (d := [[some 1], [some 2], [some 3]]) h (p := 0) rfl rfl rfl (by simp)
  have e : average firstNumber [[some 1], [some 2], [some 3]] = 2 := by decide +kernel
  obtain ⟨h5, h6⟩ := (h4 firstNumber).2 (by decide)
  rw [e] at h5 h6
  exact ⟨Ω, i, w, sun, h5, h6.trans (by decide +kernel)⟩

/-- and it is at 1 or more from 2 with a chance of at most 1 / 6 -/
example : ∃ (Ω : Type) (_ : Fintype Ω) (w : Ω → ℚ) (sun : Ω → Rows),
    chance w (fun ω => 1 ≤ |average firstNumber (sun ω) - 2|) ≤ 1 / 6 := by
  obtain ⟨Ω, i, w, res, h⟩ := three_fair
  obtain ⟨sun, h3, h4⟩ := C117_enough_partial (d := [[some 1], [some 2], [some 3]]) h (p := 0) rfl rfl rfl (by simp)
    firstNumber (ε := 1) (δ := 1 / 6) (by norm_num) (by norm_num) (by decide +kernel) (by decide)
  have e : average firstNumber [[some 1], [some 2], [some 3]] = 2 := by decide +kernel
  rw [e] at h4
  exact ⟨Ω, i, w, sun, h4⟩

end Hadar.Props
