import Verif.Proofs.Chance
import Verif.Props.Fault

/-! # C116: how often faults happen -/

namespace Hadar.Props

open Hadar Spec

variable {σ : Type} {Ω : Type} [Fintype Ω]

/-- what a `Fault` without seed does to a scenario, in terms of the faults drawn for it -/
theorem fault_values {g : Rng σ} {w w' : PipeWorld σ} {p : FaultParams} {s : ℕ}
    (hs : PipeWorld.newFault g p w = (.ok s, w')) (hseed : ∀ z ∈ p.seed, z = 0)
    {d : Data} {t : Timeline} (hd : Labelled d t) (hr : t.index = rangeIndex t.index.length)
    (hrect : Rect t) {r : Rand σ} {t' : Timeline} (h : (w'.callStage g s (d, r)).1 = .ok t')
    {k : ℕ} {scn : Cell} (hk : t.scenarios[k]? = some scn) {F : List (ℤ × ℤ)}
    (hF : (drawnFaults g p t.index.length (stateAt g p t.index.length (g.seed (r.os 0).val) k)).1 = F)
    (hpos : ∀ f ∈ F, 0 ≤ f.1 ∧ 0 ≤ f.2) {v : List Val} (hv : ((scn, "quantity"), v) ∈ t.cols) :
    ((scn, "quantity"), (List.range t.index.length).map fun i =>
      (v.getD i none).map fun q => q - p.loss * (going F i : ℚ)) ∈ t'.cols := by
  simp only [PipeWorld.newFault, PipeWorld.newRestricted, Prod.mk.injEq, Except.ok.injEq] at hs
  obtain ⟨rfl, rfl⟩ := hs
  have ho : (w.outs ++ [["quantity"]]).getD w.outs.length [] = ["quantity"] := by
    simp [List.getD_eq_getElem?_getD]
  have e' := hd.eq
  subst e'
  have hfail : ¬ ∃ n ∈ (Plug.restricted ["quantity"] w.outs.length).inputs, ¬ hasColumn d n := by
    intro hex
    rw [(C47_stage g _ new_stage (labelled_timeline d) r).1 hex] at h
    simp at h
  push Not at hfail
  rw [(C47_stage g _ new_stage (labelled_timeline d) r).2 hfail] at h
  simp only [Plug.outputs, ho] at h
  set r0 : Rand σ := ⟨g.seed (r.os 0).val, fun i => r.os (i + 1)⟩ with hr0
  have hp : focusProcess (faultScenario g p) ["quantity"] d.timeline r0 =
      (.ok t', (focusProcess (faultScenario g p) ["quantity"] d.timeline r0).2) := Prod.ext h rfl
  obtain ⟨r1, val, r2, h1, h2, ha⟩ := focus_at
    (step := stateAt g p d.timeline.index.length (g.seed (r.os 0).val))
    (fun scn r v r' k e1 e2 => by
      have := (faultScenario_drawn hseed e2).2
      rw [e1] at this
      exact this) rfl hp hk
  have hdr := (faultScenario_drawn hseed h2).1
  have hind : (d.timeline.sub scn).index = d.timeline.index := rfl
  rw [hind, h1, hF] at hdr
  obtain ⟨hi, hone, hcols⟩ := subtractQuantity_ok hdr
  obtain ⟨v', hget, hv'⟩ := unique_column hone
  obtain rfl : v = v' := (hv' v).1 (mem_sub.2 hv)
  have hlv : v.length = d.timeline.index.length := hrect _ hv
  rw [← mem_sub, assign_range ha (by rw [hi]; exact hr) (by simp)]
  refine List.mem_map.mpr ⟨"quantity", by simp, ?_⟩
  rw [hcols, get?_map_quantity _ fun c =>
    List.zipWith subVal c (lossOf p.loss d.timeline.index.length F), hget]
  simp only [Option.map_some, Option.getD_some, if_true, Prod.mk.injEq, true_and]
  rw [lossOf_any fun f m => (hpos f m).1]
  apply List.ext_getElem
  · simp [hlv]
  · intro i h1 h2
    simp only [List.length_zipWith, List.length_map, List.length_range] at h1
    simp only [List.getElem_zipWith, List.getElem_map, List.getElem_range, subVal,
      List.getD_eq_getElem?_getD, List.getElem?_eq_getElem (show i < v.length by omega), Option.getD_some]
    rw [goingAny_eq hpos i]

/-- A `Fault` without seed, in a session, on data, with a generator for each thing that may happen: `T ω` is the frame
obtained, and the faults for the scenario at place `k` are drawn as they should be. -/
structure FaultyRuns (w : Ω → ℚ) (p : FaultParams) (t : Timeline) (k : ℕ) (scn : Cell) (T : Ω → Timeline) : Prop where
  seed : ∀ z ∈ p.seed, z = 0
  rows : t.index = rangeIndex t.index.length
  steps : 0 < t.index.length
  rect : Rect t
  place : t.scenarios[k]? = some scn
  min : 0 ≤ p.downtimeMin
  downtimes : p.downtimeMin < p.downtimeMax
  runs : ∃ (σ : Type) (g : Ω → Rng σ) (world world' : Ω → PipeWorld σ) (s : Ω → ℕ) (d : Data) (r : Ω → Rand σ),
    Labelled d t ∧ (∀ ω, PipeWorld.newFault (g ω) p (world ω) = (.ok (s ω), world' ω)) ∧
    (∀ ω, ((world' ω).callStage (g ω) (s ω) (d, r ω)).1 = .ok (T ω)) ∧
    FairFaults w p.occurFreq t.index.length p.downtimeMin p.downtimeMax fun ω =>
      (drawnFaults (g ω) p t.index.length (stateAt (g ω) p t.index.length ((g ω).seed ((r ω).os 0).val) k)).1

/-- the quantity of a scenario at a step, and the faults behind -/
theorem FaultyRuns.values {w : Ω → ℚ} {p : FaultParams} {t : Timeline} {k : ℕ} {scn : Cell} {T : Ω → Timeline}
    (h : FaultyRuns w p t k scn T) {v : List Val} (hv : ((scn, "quantity"), v) ∈ t.cols) {i : ℕ} {q : ℚ}
    (hq : v[i]? = some (some q)) :
    i < t.index.length ∧ ∃ F : Ω → List (ℤ × ℤ),
      FairFaults w p.occurFreq t.index.length p.downtimeMin p.downtimeMax F ∧
      ∀ ω, ∃ v', ((scn, "quantity"), v') ∈ (T ω).cols ∧ v'[i]? = some (some (q - p.loss * (going (F ω) i : ℚ))) := by
  obtain ⟨σ, g, world, world', s, d, r, h1, h2, h3, h4⟩ := h.runs
  have hi : i < t.index.length := by
    have := (List.getElem?_eq_some_iff.mp hq).1
    rwa [h.rect _ hv] at this
  refine ⟨hi, _, h4, fun ω => ⟨_, fault_values (h2 ω) h.seed h1 h.rows h.rect (h3 ω) h.place rfl ?_ hv, ?_⟩⟩
  · intro f hf
    have := (h4.possible ω).2 f hf
    exact ⟨this.1.1, le_trans h.min this.2.1⟩
  · rw [List.getElem?_map, List.getElem?_range hi, Option.map_some, List.getD_eq_getElem?_getD, hq]
    rfl

/-- C116, for frames with rows labelled 0, 1, 2, ..., no seed and durations that are not negative (in the other cases the
faults do not fall where drawn, see C53, or are the same in every run, see C66): the quantity left at a step is, on average, what was there less the loss times the frequency times the mean
number of steps a fault going on there may have begun at -/
theorem C116_mean_partial {w : Ω → ℚ} {p : FaultParams} {t : Timeline} {k : ℕ} {scn : Cell} {T : Ω → Timeline}
    (h : FaultyRuns w p t k scn T) {v : List Val} (hv : ((scn, "quantity"), v) ∈ t.cols) {i : ℕ} {q : ℚ}
    (hq : v[i]? = some (some q)) :
    ∃ x : Ω → ℚ, (∀ ω, ∃ v', ((scn, "quantity"), v') ∈ (T ω).cols ∧ v'[i]? = some (some (x ω))) ∧
      mean w x = q - p.loss * p.occurFreq * reach p.downtimeMin p.downtimeMax i := by
  obtain ⟨hi, F, hF, hx⟩ := h.values hv hq
  refine ⟨_, hx, ?_⟩
  have e1 : mean w (fun ω => q - p.loss * (going (F ω) i : ℚ)) =
      q * (∑ ω, w ω) - p.loss * mean w (fun ω => (going (F ω) i : ℚ)) := by
    unfold mean
    rw [Finset.mul_sum, Finset.mul_sum, ← Finset.sum_sub_distrib]
    exact Finset.sum_congr rfl fun ω _ => by ring
  have e2 := mean_count (fun x => decide (x.1 ≤ (i : ℤ) ∧ (i : ℤ) < x.1 + x.2)) hF h.steps h.downtimes
  rw [card_going h.min hi] at e2
  rw [e1, hF.weights.total, show mean w (fun ω => (going (F ω) i : ℚ)) = _ from e2]
  unfold reach
  push_cast
  ring

/-- C116: far from the first step, the quantity lost is, on average, the loss times the frequency times the mean
duration of a fault -/
theorem C116_steady {lo hi : ℤ} (hl : lo < hi) {i : ℕ} (hi' : hi ≤ i + 2) :
    reach lo hi i = ((lo : ℚ) + (hi - 1)) / 2 := by
  unfold reach
  have hm : (0 : ℚ) < (hi : ℚ) - lo := by
    have : (lo : ℚ) < hi := by exact_mod_cast hl
    linarith
  have e : ((∑ d ∈ Finset.Ico lo hi, (min d (i + 1) : ℤ) : ℤ) : ℚ) = ∑ d ∈ Finset.Ico lo hi, (d : ℚ) := by
    push_cast
    refine Finset.sum_congr rfl fun d hd => ?_
    rw [Finset.mem_Ico] at hd
    have : min d ((i : ℤ) + 1) = d := by omega
    exact_mod_cast this
  have e2 := sum_durations lo (hi - lo).toNat
  have e3 : lo + (((hi - lo).toNat : ℕ) : ℤ) = hi := by omega
  rw [e3] at e2
  have e4 : (((hi - lo).toNat : ℕ) : ℚ) = (hi : ℚ) - lo := by
    have : ((((hi - lo).toNat : ℕ) : ℤ) : ℚ) = ((hi - lo : ℤ) : ℚ) := by rw [Int.toNat_of_nonneg (by omega)]
    push_cast at this
    exact this
  rw [e, e2, e4, div_eq_iff hm.ne']
  ring

/-- C116: the first steps lose less on average, since no fault began before the first one -/
theorem C116_early {lo hi : ℤ} (hl : lo < hi) {i j : ℕ} (hij : i ≤ j) :
    reach lo hi i ≤ reach lo hi j ∧ (1 ≤ lo → reach lo hi 0 = 1) := by
  have hm : (0 : ℚ) < (hi : ℚ) - lo := by
    have : (lo : ℚ) < hi := by exact_mod_cast hl
    linarith
  constructor
  · unfold reach
    refine div_le_div_of_nonneg_right ?_ hm.le
    have : ∑ d ∈ Finset.Ico lo hi, min d ((i : ℤ) + 1) ≤ ∑ d ∈ Finset.Ico lo hi, min d ((j : ℤ) + 1) :=
      Finset.sum_le_sum fun d _ => by omega
    exact_mod_cast this
  · intro h1
    unfold reach
    have e : ∑ d ∈ Finset.Ico lo hi, min d (((0 : ℕ) : ℤ) + 1) = hi - lo := by
      have : ∀ d ∈ Finset.Ico lo hi, min d (((0 : ℕ) : ℤ) + 1) = 1 := by
        intro d hd
        rw [Finset.mem_Ico] at hd
        omega
      rw [Finset.sum_congr rfl this, Finset.sum_const, Int.card_Ico]
      simp only [nsmul_eq_mul, mul_one]
      omega
    rw [e]
    push_cast
    exact div_self hm.ne'

/-- C116, in the same cases: the chance that a step is spared. The documentation says that `occur_freq` is the probability
of a fault for each timestamp; see `C116_refuted`. -/
theorem C116_spared_partial {w : Ω → ℚ} {p : FaultParams} {t : Timeline} {k : ℕ} {scn : Cell} {T : Ω → Timeline}
    (h : FaultyRuns w p t k scn T) (hloss : p.loss ≠ 0) {v : List Val} (hv : ((scn, "quantity"), v) ∈ t.cols) {i : ℕ}
    {q : ℚ} (hq : v[i]? = some (some q)) :
    ∃ x : Ω → ℚ, (∀ ω, ∃ v', ((scn, "quantity"), v') ∈ (T ω).cols ∧ v'[i]? = some (some (x ω))) ∧
      chance w (fun ω => x ω = q) =
        (1 - p.occurFreq * reach p.downtimeMin p.downtimeMax i / t.index.length) ^ t.index.length := by
  obtain ⟨hi, F, hF, hx⟩ := h.values hv hq
  refine ⟨_, hx, ?_⟩
  have e2 := chance_none (fun x => decide (x.1 ≤ (i : ℤ) ∧ (i : ℤ) < x.1 + x.2)) hF h.steps h.downtimes
  rw [card_going h.min hi] at e2
  have e1 : chance w (fun ω => q - p.loss * (going (F ω) i : ℚ) = q) =
      chance w (fun ω => ((F ω).filter fun x => decide (x.1 ≤ (i : ℤ) ∧ (i : ℤ) < x.1 + x.2)).length = 0) := by
    unfold chance
    refine Finset.sum_congr rfl fun ω _ => ?_
    congr 1
    refine propext ⟨fun e => ?_, fun e => ?_⟩
    · have h0 : p.loss * (going (F ω) i : ℚ) = 0 := by linarith
      rcases mul_eq_zero.mp h0 with h1 | h1
      · exact absurd h1 hloss
      · exact_mod_cast h1
    · have h0 : going (F ω) i = 0 := e
      show q - p.loss * (going (F ω) i : ℚ) = q
      rw [h0]; simp
  rw [e1, e2]
  congr 1
  unfold reach
  have hm : (0 : ℚ) < (p.downtimeMax : ℚ) - p.downtimeMin := by
    have : (p.downtimeMin : ℚ) < p.downtimeMax := by exact_mod_cast h.downtimes
    linarith
  have hh : (0 : ℚ) < t.index.length := by exact_mod_cast h.steps
  push_cast
  field_simp

/-- C116 refuted: with faults of one step, a step suffers a fault less often than `occur_freq`, for any frequency and on any
data of two steps or more. -/
theorem C116_refuted {w : Ω → ℚ} {p : FaultParams} {t : Timeline} {k : ℕ} {scn : Cell} {T : Ω → Timeline}
    (h : FaultyRuns w p t k scn T) (hloss : p.loss ≠ 0) (h1 : p.downtimeMin = 1) (h2 : p.downtimeMax = 2)
    (hf : 0 < p.occurFreq ∧ p.occurFreq ≤ 1) (hn : 2 ≤ t.index.length)
    {v : List Val} (hv : ((scn, "quantity"), v) ∈ t.cols) {i : ℕ} {q : ℚ} (hq : v[i]? = some (some q)) :
    ∃ x : Ω → ℚ, (∀ ω, ∃ v', ((scn, "quantity"), v') ∈ (T ω).cols ∧ v'[i]? = some (some (x ω))) ∧
      chance w (fun ω => x ω ≠ q) < p.occurFreq := by
  obtain ⟨x, hx, hc⟩ := C116_spared_partial h hloss hv hq
  refine ⟨x, hx, ?_⟩
  obtain ⟨_, F, hF, -⟩ := h.values hv hq
  have e1 : chance w (fun ω => x ω ≠ q) = 1 - chance w (fun ω => x ω = q) := by
    rw [← hF.weights.total]
    unfold chance
    rw [← Finset.sum_sub_distrib]
    refine Finset.sum_congr rfl fun ω _ => ?_
    by_cases he : x ω = q <;> simp [he]
  have e2 : reach p.downtimeMin p.downtimeMax i = 1 := by
    rw [h1, h2, C116_steady (by norm_num) (by omega)]
    norm_num
  rw [e1, hc, e2, mul_one]
  set n := t.index.length with hn'
  have hh : (0 : ℚ) < n := by
    have : 0 < n := by omega
    exact_mod_cast this
  have hn2 : (2 : ℚ) ≤ n := by exact_mod_cast hn
  have hlt := bernoulli (a := p.occurFreq / n) (div_pos hf.1 hh) (by rw [div_lt_iff₀ hh]; linarith [hf.2]) hn
  have e3 : (n : ℚ) * (p.occurFreq / n) = p.occurFreq := by field_simp
  rw [e3] at hlt
  linarith

/-! ### The hypotheses can be met -/

/-- a scenario with one column of quantities -/
def oneQuantity (vs : List Val) : Timeline := ⟨rangeIndex vs.length, [((Cell.num 0, "quantity"), vs)]⟩

theorem oneQuantity_fault {g : Rng σ} {p : FaultParams} (hseed : ∀ z ∈ p.seed, z = 0)
    (hf : 0 ≤ p.occurFreq ∧ p.occurFreq ≤ 1) (hd : p.downtimeMin < p.downtimeMax) {vs : List Val} (hn : 0 < vs.length)
    (r : Rand σ) : ∃ t', ((PipeWorld.newFault g p PipeWorld.empty).2.callStage g 0 (.multi (oneQuantity vs), r)).1 =
      .ok t' := by
  have hlen : (oneQuantity vs).index.length = vs.length := by simp [oneQuantity, rangeIndex]
  have hst : (PipeWorld.newFault g p PipeWorld.empty).2.stages[0]? =
      some ⟨.restricted ["quantity"] 0, focusProcess (faultScenario g p)⟩ := rfl
  rw [(C47_stage g _ hst (Labelled.multi (oneQuantity vs)) r).2 (by
    intro n hm
    simp only [Plug.inputs, List.mem_singleton] at hm
    subst hm
    exact ⟨_, _, List.mem_singleton_self _⟩)]
  have ho : (Plug.restricted ["quantity"] 0).outputs (PipeWorld.newFault g p PipeWorld.empty).2.outs = ["quantity"] := rfl
  rw [ho]
  set r0 : Rand σ := ⟨g.seed (r.os 0).val, fun i => r.os (i + 1)⟩
  have hsub : (oneQuantity vs).sub (.num 0) = ⟨rangeIndex vs.length, [("quantity", vs)]⟩ := by
    simp [oneQuantity, Timeline.sub]
  have hscn : (oneQuantity vs).scenarios = [.num 0] := rfl
  have hsd : faultSeed g p.seed r0 = (.ok (), r0) := by
    rcases hz : p.seed with _ | z
    · rfl
    · have := hseed z (by rw [hz]; rfl)
      subst this
      rfl
  have hrun : ∃ v r1, faultScenario g p (.num 0) ⟨rangeIndex vs.length, [("quantity", vs)]⟩ r0 = (.ok v, r1) ∧
      v.index = rangeIndex vs.length ∧ v.cols.map (·.1) = ["quantity"] := by
    have hl2 : (rangeIndex vs.length).length = vs.length := by simp [rangeIndex]
    simp only [faultScenario, PyM.bind_run, hsd, PyM.lift_run, npCount, if_pos hf, npRandint, hl2]
    by_cases h0 : (g.count p.occurFreq vs.length r0.np).1 = 0
    · simp only [h0, if_true]
      exact ⟨_, _, rfl, rfl, rfl⟩
    · have h1 : ¬ ((vs.length : ℤ) ≤ 0) := by omega
      simp only [if_neg h0, if_neg h1, if_neg (not_le.mpr hd)]
      exact ⟨_, _, rfl, rfl, rfl⟩
  obtain ⟨v, r1, h1, h2, h3⟩ := hrun
  simp only [focusProcess, hscn, focusLoop, PyM.bind_run, hsub, h1, PyM.lift_run, hlen, assignScenario, h3, h2,
    if_true, reduceCtorEq, if_false, PyM.pure, ne_eq, not_true, false_and]
  exact ⟨_, rfl⟩

/-- C116: whatever the parameters, there are generators that draw faults as they should -/
theorem C116_possible {p : FaultParams} (hseed : ∀ z ∈ p.seed, z = 0) (hf : 0 ≤ p.occurFreq ∧ p.occurFreq ≤ 1)
    (hmin : 0 ≤ p.downtimeMin) (hd : p.downtimeMin < p.downtimeMax) {vs : List Val} (hn : 0 < vs.length) :
    ∃ (Ω : Type) (_ : Fintype Ω) (w : Ω → ℚ) (T : Ω → Timeline), FaultyRuns w p (oneQuantity vs) 0 (.num 0) T := by
  have hlen : (oneQuantity vs).index.length = vs.length := by simp [oneQuantity, rangeIndex]
  let Ω := {l // l ∈ listsUpTo (possibles vs.length p.downtimeMin p.downtimeMax) vs.length}
  let r : Rand ℕ := ⟨0, fun _ => 0⟩
  have hT : ∀ ω : Ω, ∃ t', ((PipeWorld.newFault (tape ω.1) p PipeWorld.empty).2.callStage (tape ω.1) 0
      (.multi (oneQuantity vs), r)).1 = .ok t' := fun ω => oneQuantity_fault hseed hf hd hn r
  choose T hT using hT
  refine ⟨Ω, inferInstance,
    fun ω => weightOf p.occurFreq vs.length p.downtimeMin p.downtimeMax ω.1, T, hseed, ?_, by omega, ?_, rfl, hmin, hd, ℕ, fun ω => tape ω.1,
    fun _ => PipeWorld.empty, fun ω => (PipeWorld.newFault (tape ω.1) p PipeWorld.empty).2, fun _ => 0,
    .multi (oneQuantity vs), fun _ => r, .multi _, fun ω => rfl, hT, ?_⟩
  · rw [hlen]; rfl
  · intro c hc
    simp only [oneQuantity, List.mem_singleton] at hc
    subst hc
    rw [hlen]
  · rw [hlen]
    have e : (fun ω : Ω => (drawnFaults (tape ω.1) p vs.length (stateAt (tape ω.1) p vs.length
        ((tape ω.1).seed (r.os 0).val) 0)).1) = fun ω => ω.1 := by
      funext ω
      obtain ⟨h1, h2⟩ := mem_listsUpTo.mp ω.2
      exact tape_drawn h1 (fun x hx => mem_possibles.mp (h2 x hx)) _
    rw [e]
    exact weightOf_fair hf hn hd

/-- two steps, faults of one step with frequency one half -/
def halfFaults : FaultParams := ⟨5, 1 / 2, 1, 2, none⟩

theorem halfFaults_runs : ∃ (Ω : Type) (_ : Fintype Ω) (w : Ω → ℚ) (T : Ω → Timeline),
    FaultyRuns w halfFaults (oneQuantity [some 10, some 20]) 0 (.num 0) T :=
  C116_possible (by simp [halfFaults]) (by decide +kernel) (by decide) (by decide) (by decide)

/-- the theorems apply to them: the mean quantity of the second step is 20 - 5 / 2, and the chance of a fault there is
less than one half -/
example : ∃ (Ω : Type) (_ : Fintype Ω) (w : Ω → ℚ) (T : Ω → Timeline) (x : Ω → ℚ),
    (∀ ω, ∃ v', ((Cell.num 0, "quantity"), v') ∈ (T ω).cols ∧ v'[1]? = some (some (x ω))) ∧ mean w x = 35 / 2 := by
  obtain ⟨Ω, i, w, T, h⟩ := halfFaults_runs
  obtain ⟨x, hx, e⟩ := C116_mean_partial h (v := [some 10, some 20]) (i := 1) (q := 20) (List.mem_singleton_self _) rfl
  refine ⟨Ω, i, w, T, x, hx, e.trans ?_⟩
  rw [show reach halfFaults.downtimeMin halfFaults.downtimeMax 1 = _ from C116_steady (by decide) (by decide)]
  norm_num [halfFaults]

example : ∃ (Ω : Type) (_ : Fintype Ω) (w : Ω → ℚ) (T : Ω → Timeline) (x : Ω → ℚ),
    (∀ ω, ∃ v', ((Cell.num 0, "quantity"), v') ∈ (T ω).cols ∧ v'[1]? = some (some (x ω))) ∧
      chance w (fun ω => x ω ≠ 20) < 1 / 2 := by
  obtain ⟨Ω, i, w, T, h⟩ := halfFaults_runs
  obtain ⟨x, hx, e⟩ := C116_refuted h (by decide +kernel) rfl rfl (by decide +kernel) (by decide +kernel)
    (v := [some 10, some 20]) (i := 1) (q := 20) (List.mem_singleton_self _) rfl
  exact ⟨Ω, i, w, T, x, hx, e⟩

/-- the chance that it is spared is 9 / 16 -/
example : ∃ (Ω : Type) (_ : Fintype Ω) (w : Ω → ℚ) (T : Ω → Timeline) (x : Ω → ℚ),
    (∀ ω, ∃ v', ((Cell.num 0, "quantity"), v') ∈ (T ω).cols ∧ v'[1]? = some (some (x ω))) ∧
      chance w (fun ω => x ω = 20) = 9 / 16 := by
  obtain ⟨Ω, i, w, T, h⟩ := halfFaults_runs
  obtain ⟨x, hx, e⟩ := C116_spared_partial h (by decide +kernel) (v := [some 10, some 20]) (i := 1) (q := 20)
    (List.mem_singleton_self _) rfl
  refine ⟨Ω, i, w, T, x, hx, e.trans ?_⟩
  rw [show reach halfFaults.downtimeMin halfFaults.downtimeMax 1 = _ from C116_steady (by decide) (by decide)]
  norm_num [halfFaults, oneQuantity, rangeIndex]

/-- with durations from 1 to 4 the first step is spared more than those from the fourth on -/
example : reach 1 5 0 = 1 ∧ reach 1 5 3 = 5 / 2 ∧ reach 1 5 0 ≤ reach 1 5 1 :=
  ⟨(C116_early (by decide) (le_refl 0)).2 (by decide), (C116_steady (by decide) (by decide)).trans (by norm_num),
    (C116_early (by decide) (by decide)).1⟩

end Hadar.Props
