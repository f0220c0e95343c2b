import Verif.Props.Pipeline

/-!
# Properties of the random faults (C53, C66)
-/

namespace Hadar.Props

open Hadar Spec

variable {σ : Type}

theorem assign_range {n : ℕ} {outputs : List String} {v : Scen} {cols}
    (h : assignScenario n outputs v = .ok cols) (hi : v.index = rangeIndex n) (hn : outputs.Nodup) :
    cols = outputs.map fun o => (o, (Dict.get? v.cols o).getD (List.replicate n none)) := by
  unfold assignScenario at h
  split at h
  · simp at h
  split at h
  · simp at h
  simp only [Except.ok.injEq] at h
  rw [← h]
  split
  · rename_i hnames
    rw [← hnames] at hn ⊢
    rw [List.map_map]
    conv_lhs => rw [← List.map_id v.cols]
    apply List.map_congr_left
    intro c hc
    simp only [id_eq, Function.comp_apply]
    rw [Dict.get?_of_mem hn hc]
    rfl
  · simp [hi, rangeIndex_length]

theorem unique_column {s : Scen} (h : (s.cols.filter fun c => c.1 = "quantity").length = 1) :
    ∃ v, Dict.get? s.cols "quantity" = some v ∧ ∀ v', ("quantity", v') ∈ s.cols ↔ v' = v := by
  obtain ⟨c, hc⟩ := List.length_eq_one_iff.1 h
  have hm : ∀ x, (x ∈ s.cols ∧ x.1 = "quantity") ↔ x = c := by
    intro x
    have := List.mem_singleton (a := x) (b := c)
    rw [← hc, List.mem_filter] at this
    simpa using this
  obtain ⟨n, v⟩ := c
  have hn : n = "quantity" := ((hm (n, v)).2 rfl).2
  subst hn
  have key : ∀ v', ("quantity", v') ∈ s.cols ↔ v' = v := by
    intro v'
    constructor
    · intro h'
      have := (hm ("quantity", v')).1 ⟨h', rfl⟩
      simpa using this
    · rintro rfl
      exact ((hm _).2 rfl).1
  refine ⟨v, ?_, key⟩
  rcases hg : Dict.get? s.cols "quantity" with _ | v'
  · exfalso
    have hin : ("quantity", v) ∈ s.cols := (key v).2 rfl
    have := (Dict.contains_iff s.cols "quantity").2 (List.mem_map.2 ⟨_, hin, rfl⟩)
    simp [Dict.contains, hg] at this
  · rw [(key v').1 (Dict.mem_of_get? hg)]

theorem mem_sub {t : Timeline} {scn : Cell} {n : String} {v : List Val} :
    (n, v) ∈ (t.sub scn).cols ↔ ((scn, n), v) ∈ t.cols := by
  simp only [Timeline.sub, List.mem_map, List.mem_filter, decide_eq_true_eq]
  constructor
  · rintro ⟨⟨⟨s, m⟩, w⟩, ⟨h1, rfl⟩, e⟩
    simp only [Prod.mk.injEq] at e
    obtain ⟨rfl, rfl⟩ := e
    exact h1
  · intro h
    exact ⟨_, ⟨h, rfl⟩, rfl⟩

/-- A `Fault` in a session, whatever names its plug lets through (they grow when a pipeline is built), and whatever the bounds of
downtimes: in each scenario the quantity is lowered by each fault that goes on (`goingAny`: a fault with a negative duration may go on,
see `C53_negative_refuted`), and any other column let through is as it was. -/
theorem C53_any_partial (g : Rng σ) (hg : Lawful g) (w : PipeWorld σ) {p : FaultParams} {s : ℕ} {o : Ref}
    (hs : w.stages[s]? = some ⟨.restricted ["quantity"] o, focusProcess (faultScenario g p)⟩)
    (hout : (w.outs.getD o []).Nodup)
    {d : Data} {t : Timeline} (hd : Labelled d t) (hr : t.index = rangeIndex t.index.length)
    (hrect : Rect t) (r : Rand σ) {t' : Timeline} (h : (w.callStage g s (d, r)).1 = .ok t') :
    t'.index = t.index ∧
    (∀ scn n v, ((scn, n), v) ∈ t'.cols → scn ∈ t.scenarios ∧ n ∈ w.outs.getD o []) ∧
    ∀ scn ∈ t.scenarios, ∃ (faults : List (ℤ × ℤ)) (v : List Val),
      faults.length ≤ t.index.length ∧
      (∀ f ∈ faults, 0 ≤ f.1 ∧ f.1 < t.index.length ∧ p.downtimeMin ≤ f.2 ∧ f.2 < p.downtimeMax) ∧
      (∀ v', ((scn, "quantity"), v') ∈ t.cols ↔ v' = v) ∧
      (t'.sub scn).cols = (w.outs.getD o []).map fun n =>
        if n = "quantity" then
          (n, (List.range t.index.length).map fun i =>
            (v.getD i none).map fun q => q - p.loss * (goingAny t.index.length faults i : ℚ))
        else (n, (Dict.get? (t.sub scn).cols n).getD (List.replicate t.index.length none)) := by
  have e' := hd.eq
  subst e'
  have hfail : ¬ ∃ n ∈ (Plug.restricted ["quantity"] o).inputs, ¬ hasColumn d n := by
    intro hex
    rw [(C47_stage g w hs (labelled_timeline d) r).1 hex] at h
    simp at h
  push Not at hfail
  rw [(C47_stage g w hs (labelled_timeline d) r).2 hfail] at h
  generalize (⟨g.seed (r.os 0).val, fun i => r.os (i + 1)⟩ : Rand σ) = r0 at h
  have hp : focusProcess (faultScenario g p) (w.outs.getD o []) d.timeline r0 =
      (.ok t', (focusProcess (faultScenario g p) (w.outs.getD o []) d.timeline r0).2) := Prod.ext h rfl
  refine ⟨by rw [(focusProcess_ok hp).1, ← hr], fun scn n v hm => focus_scenarios hp hm, ?_⟩
  intro scn hm
  obtain ⟨r1, val, r2, hv, ha⟩ := focus_sub hp hm
  obtain ⟨faults, hlen, hf, hsub⟩ := faultScenario_ok hg hv
  obtain ⟨hi, hone, hcols⟩ := subtractQuantity_ok hsub
  obtain ⟨v, hget, hv'⟩ := unique_column hone
  refine ⟨faults, v, hlen, hf, fun v' => by rw [← mem_sub]; exact hv' v', ?_⟩
  rw [assign_range ha (by rw [hi]; exact hr) hout]
  apply List.map_congr_left
  intro n _
  have hlv : v.length = d.timeline.index.length :=
    hrect _ (mem_sub.1 ((hv' v).2 rfl))
  have hind : (d.timeline.sub scn).index = d.timeline.index := rfl
  rw [hcols, get?_map_quantity _ fun c =>
    List.zipWith subVal c (lossOf p.loss (d.timeline.sub scn).index.length faults)]
  by_cases hq : n = "quantity"
  · subst hq
    rw [if_pos rfl, hget]
    simp only [Option.map_some, Option.getD_some, if_true, Prod.mk.injEq, true_and]
    rw [lossOf_any fun f m => (hf f m).1, hind]
    apply List.ext_getElem
    · simp [hlv]
    · intro i h1 h2
      simp only [List.length_zipWith, List.length_map, List.length_range] at h1
      simp [subVal, List.getD_eq_getElem?_getD, List.getElem?_eq_getElem (show i < v.length by omega)]
  · simp [hq]

/-- A `Fault` in a session, whatever names its plug lets through (they grow when a pipeline is built): in each
scenario the quantity is lowered as announced, and any other column let through is as it was. -/
theorem C53_passing_partial (g : Rng σ) (hg : Lawful g) (w : PipeWorld σ) {p : FaultParams} {s : ℕ} {o : Ref}
    (hs : w.stages[s]? = some ⟨.restricted ["quantity"] o, focusProcess (faultScenario g p)⟩)
    (hout : (w.outs.getD o []).Nodup) (hmin : 0 ≤ p.downtimeMin)
    {d : Data} {t : Timeline} (hd : Labelled d t) (hr : t.index = rangeIndex t.index.length)
    (hrect : Rect t) (r : Rand σ) {t' : Timeline} (h : (w.callStage g s (d, r)).1 = .ok t') :
    t'.index = t.index ∧
    (∀ scn n v, ((scn, n), v) ∈ t'.cols → scn ∈ t.scenarios ∧ n ∈ w.outs.getD o []) ∧
    ∀ scn ∈ t.scenarios, ∃ (faults : List (ℤ × ℤ)) (v : List Val),
      faults.length ≤ t.index.length ∧
      (∀ f ∈ faults, 0 ≤ f.1 ∧ f.1 < t.index.length ∧ p.downtimeMin ≤ f.2 ∧ f.2 < p.downtimeMax) ∧
      (∀ v', ((scn, "quantity"), v') ∈ t.cols ↔ v' = v) ∧
      (t'.sub scn).cols = (w.outs.getD o []).map fun n =>
        if n = "quantity" then
          (n, (List.range t.index.length).map fun i =>
            (v.getD i none).map fun q => q - p.loss * (going faults i : ℚ))
        else (n, (Dict.get? (t.sub scn).cols n).getD (List.replicate t.index.length none)) := by
  obtain ⟨h1, h2, h3⟩ := C53_any_partial g hg w hs hout hd hr hrect r h
  refine ⟨h1, h2, fun scn hm => ?_⟩
  obtain ⟨faults, v, a1, a2, a3, a4⟩ := h3 scn hm
  refine ⟨faults, v, a1, a2, a3, ?_⟩
  have he : goingAny t.index.length faults = going faults :=
    funext fun i => goingAny_eq (fun f m => ⟨(a2 f m).1, le_trans hmin (a2 f m).2.2.1⟩) i
  rw [a4, he]

/-- The full claim is for every frame and every bounds; it is proved for frames with rows labelled
0, 1, 2, ... and a minimal downtime that is not negative. After `Fault`, in each scenario, the quantity at
step `i` is the original minus loss times the number of faults going on; there are at most as many faults
as steps, each of them lasts less than `downtime_max` steps, and no other column appears. -/
theorem C53_partial (g : Rng σ) (hg : Lawful g) {w w' : PipeWorld σ} {p : FaultParams} {s : ℕ}
    (hs : PipeWorld.newFault g p w = (.ok s, w')) (hmin : 0 ≤ p.downtimeMin)
    {d : Data} {t : Timeline} (hd : Labelled d t) (hr : t.index = rangeIndex t.index.length)
    (hrect : Rect t) (r : Rand σ) {t' : Timeline} (h : (w'.callStage g s (d, r)).1 = .ok t') :
    t'.index = t.index ∧
    (∀ scn n v, ((scn, n), v) ∈ t'.cols → scn ∈ t.scenarios ∧ n = "quantity") ∧
    ∀ scn ∈ t.scenarios, ∃ (faults : List (ℤ × ℤ)) (v : List Val),
      faults.length ≤ t.index.length ∧
      (∀ f ∈ faults, 0 ≤ f.1 ∧ f.1 < t.index.length ∧ p.downtimeMin ≤ f.2 ∧ f.2 ≤ p.downtimeMax - 1) ∧
      (∀ v', ((scn, "quantity"), v') ∈ t.cols ↔ v' = v) ∧
      (t'.sub scn).cols = [("quantity", (List.range t.index.length).map fun i =>
        (v.getD i none).map fun q => q - p.loss * (going faults i : ℚ))] := by
  simp only [PipeWorld.newFault, PipeWorld.newRestricted, Prod.mk.injEq, Except.ok.injEq] at hs
  obtain ⟨rfl, rfl⟩ := hs
  have ho : (w.outs ++ [["quantity"]]).getD w.outs.length [] = ["quantity"] := by
    simp [List.getD_eq_getElem?_getD]
  obtain ⟨h1, h2, h3⟩ := C53_passing_partial g hg _ new_stage
    (by simp only [ho]; simp) hmin hd hr hrect r h
  simp only [ho] at h2 h3
  refine ⟨h1, fun scn n v hm => ⟨(h2 scn n v hm).1, by simpa using (h2 scn n v hm).2⟩, ?_⟩
  intro scn hm
  obtain ⟨faults, v, a1, a2, a3, a4⟩ := h3 scn hm
  exact ⟨faults, v, a1, fun f hf => by have := a2 f hf; omega, a3, by simpa using a4⟩

/-! ### C66: seeded faults -/

theorem focusLoop_det {process : Cell → Scen → PyM (Rand σ) Scen}
    (hd : ∀ scn x r1 r2, (process scn x r1).1 = (process scn x r2).1) (outputs : List String)
    (t : Timeline) (scns : List Cell) (r1 r2 : Rand σ) :
    (focusLoop process outputs t scns r1).1 = (focusLoop process outputs t scns r2).1 := by
  induction scns generalizing r1 r2 with
  | nil => rfl
  | cons scn rest ih =>
    simp only [focusLoop, PyM.bind_run, PyM.lift_run]
    have := hd scn (t.sub scn) r1 r2
    rcases h1 : process scn (t.sub scn) r1 with ⟨a, s1⟩
    rcases h2 : process scn (t.sub scn) r2 with ⟨b, s2⟩
    rw [h1, h2] at this
    simp only at this
    subst this
    cases a with
    | error e => rfl
    | ok v =>
      simp only
      rcases assignScenario t.index.length outputs v with e | c
      · rfl
      · simp only
        have := ih s1 s2
        rcases h3 : focusLoop process outputs t rest s1 with ⟨a, s3⟩
        rcases h4 : focusLoop process outputs t rest s2 with ⟨b, s4⟩
        rw [h3, h4] at this
        simp only at this
        subst this
        cases a <;> rfl

theorem focusProcess_det {process : Cell → Scen → PyM (Rand σ) Scen}
    (hd : ∀ scn x r1 r2, (process scn x r1).1 = (process scn x r2).1) (outputs : List String)
    (t : Timeline) (r1 r2 : Rand σ) :
    (focusProcess process outputs t r1).1 = (focusProcess process outputs t r2).1 := by
  have := focusLoop_det hd outputs t t.scenarios r1 r2
  simp only [focusProcess, PyM.bind_run]
  rcases h1 : focusLoop process outputs t t.scenarios r1 with ⟨a, s1⟩
  rcases h2 : focusLoop process outputs t t.scenarios r2 with ⟨b, s2⟩
  rw [h1, h2] at this
  simp only at this
  subst this
  cases a <;> rfl

/-- the draws after seeding depend on the state of the generator only -/
theorem faultScenario_np (g : Rng σ) (p : FaultParams) (hp : p.seed = none) (scn : Cell) (s : Scen)
    (r1 r2 : Rand σ) (h : r1.np = r2.np) :
    (faultScenario g p scn s r1).1 = (faultScenario g p scn s r2).1 := by
  simp only [faultScenario, PyM.bind_run, hp, faultSeed, PyM.pure, PyM.lift_run]
  simp only [npCount, h]
  by_cases hf : 0 ≤ p.occurFreq ∧ p.occurFreq ≤ 1
  · rw [if_pos hf, if_pos hf]
    simp only [npRandint]
    by_cases h0 : (g.count p.occurFreq s.index.length r2.np).1 = 0
    · simp [h0]
    · simp only [if_neg h0]
      by_cases h1 : (s.index.length : ℤ) ≤ 0
      · simp only [if_pos h1]
      · simp only [if_neg h1]
        by_cases h2 : p.downtimeMax ≤ p.downtimeMin
        · simp only [if_pos h2]
        · simp only [if_neg h2]
  · rw [if_neg hf, if_neg hf]

theorem faultScenario_seeded (g : Rng σ) (p : FaultParams) {z : ℤ} (hp : p.seed = some z) (hz : z ≠ 0)
    (scn : Cell) (s : Scen) (r1 r2 : Rand σ) :
    (faultScenario g p scn s r1).1 = (faultScenario g p scn s r2).1 := by
  by_cases hr : 0 ≤ z ∧ z < 2 ^ 32
  · have key : ∀ r : Rand σ, (faultScenario g p scn s r).1 =
        (faultScenario g { p with seed := none } scn s { r with np := g.seed z.toNat }).1 := by
      intro r
      simp only [faultScenario, PyM.bind_run, hp, faultSeed, if_neg hz, npSeed, if_pos hr, PyM.pure]
    rw [key r1, key r2]
    exact faultScenario_np g _ rfl scn s _ _ rfl
  · have key : ∀ r : Rand σ, (faultScenario g p scn s r).1 = .error .valueError := by
      intro r
      simp only [faultScenario, PyM.bind_run, hp, faultSeed, if_neg hz, npSeed, if_neg hr]
    rw [key r1, key r2]

/-- The full claim is for every seed; it is proved for every seed but 0. With a seed, the result of `Fault`
on the same data is the same whatever happened before. -/
theorem C66_partial (g : Rng σ) {w w' : PipeWorld σ} {p : FaultParams} {s : ℕ} {z : ℤ}
    (hs : PipeWorld.newFault g p w = (.ok s, w')) (hp : p.seed = some z) (hz : z ≠ 0) (d : Data)
    (r1 r2 : Rand σ) : (w'.callStage g s (d, r1)).1 = (w'.callStage g s (d, r2)).1 := by
  simp only [PipeWorld.newFault, PipeWorld.newRestricted, Prod.mk.injEq, Except.ok.injEq] at hs
  obtain ⟨rfl, rfl⟩ := hs
  have hst : ({ w with outs := w.outs ++ [["quantity"]], stages := w.stages ++
      [⟨.restricted ["quantity"] w.outs.length, focusProcess (faultScenario g p)⟩] } : PipeWorld σ).stages[
        w.stages.length]? =
      some ⟨.restricted ["quantity"] w.outs.length, focusProcess (faultScenario g p)⟩ := new_stage
  by_cases hc : ∃ n ∈ ["quantity"], ¬ hasColumn d n
  · rw [(C47_stage g _ hst (labelled_timeline d) r1).1 hc,
      (C47_stage g _ hst (labelled_timeline d) r2).1 hc]
  · push Not at hc
    rw [(C47_stage g _ hst (labelled_timeline d) r1).2 hc,
      (C47_stage g _ hst (labelled_timeline d) r2).2 hc]
    exact focusProcess_det (faultScenario_seeded g p hp hz) _ _ _ _

end Hadar.Props
