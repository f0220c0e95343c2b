import Verif.Spec.Marks
import Verif.Props.Viewer
import Verif.Props.Drawing

/-!
# Bars of storage charts (C107), colours of exchange maps (C108)
-/

namespace Hadar.Props

open Spec

variable {junk : Junk} {s : Study} {r : Result} {a : Analyzer}

theorem cut_whole (q : ℚ) : Whole q (Viewer.cut q) := by
  unfold Viewer.cut
  constructor
  · intro h
    rw [if_pos h]
    have h2 := Rat.lt_floor_add_one q
    push_cast at h2
    exact ⟨Rat.le_floor_iff.mpr (by simpa using h), Rat.floor_le q, h2⟩
  · intro h
    rcases eq_or_lt_of_le h with rfl | h0
    · have h0 : Rat.floor 0 = 0 := by decide +kernel
      rw [if_pos le_rfl, h0]; norm_num
    · rw [if_neg (by linarith)]
      have h1 := Rat.floor_le (-q)
      have h2 := Rat.lt_floor_add_one (-q)
      have h3 : 0 ≤ (-q).floor := Rat.le_floor_iff.mpr (by simp; linarith)
      push_cast at h2 ⊢
      refine ⟨by omega, by linarith, by linarith⟩

/-- whole parts are unique -/
theorem Whole.unique {q : ℚ} {n m : ℤ} (hn : Whole q n) (hm : Whole q m) : n = m := by
  rcases le_total 0 q with h | h
  · obtain ⟨-, a1, a2⟩ := hn.1 h
    obtain ⟨-, b1, b2⟩ := hm.1 h
    have h1 : (n : ℚ) < m + 1 := by linarith
    have h2 : (m : ℚ) < n + 1 := by linarith
    have h1' : n < m + 1 := by exact_mod_cast h1
    have h2' : m < n + 1 := by exact_mod_cast h2
    omega
  · obtain ⟨-, a1, a2⟩ := hn.2 h
    obtain ⟨-, b1, b2⟩ := hm.2 h
    have h1 : (n : ℚ) < m + 1 := by linarith
    have h2 : (m : ℚ) < n + 1 := by linarith
    have h1' : n < m + 1 := by exact_mod_cast h1
    have h2' : m < n + 1 := by exact_mod_cast h2
    omega

theorem barOf_says (label : ℚ → String) (t o c : ℚ) : BarSays label t o c (Viewer.barOf label t o c) :=
  ⟨rfl, rfl, rfl, _, _, _, cut_whole o, cut_whole c, cut_whole (c - o), rfl⟩

/-- C107 (partial): in the chart of the storage of a study solved by the LP optimizer there is a bar for each time step,
which stands at the time of the time step, opens at the level before it and closes at the level after it, with a text that
says the three numbers without their decimals. The bar lies between its `low` and its `high` exactly when the level does
not rise. Missing: bounds when it rises (`C107_refuted`), studies with several storages (`C59_refuted`). -/
theorem C107_partial (hs : Ready s) {solver : Solver} {b : Benchmark} (hr : solveLp solver b s = .ok r)
    (ha : Analyzer.init junk s r = .ok a) (h1s : storageCount s ≤ 1) {g d : String} {n : InputNode} {i : ℕ}
    {c : Storage} (hn : HasNode s g d n) (hc : n.storages[i]? = some c) {k : ℕ} (hk : k < s.nbScn)
    (hf : Answers solver s k Cmd.Feasible) (hh : 0 < s.horizon) (label : ℚ → String) {start stop : Option ℚ}
    {times : List ℚ} (ht : Viewer.timeIndex start stop s.horizon = .ok times) :
    ∃ bars, Viewer.candlesDrawn label start stop a g d c.name (k : ℤ) = .ok bars ∧ bars.length = s.horizon ∧
      ∀ t < s.horizon, ∃ bar time, bars[t]? = some bar ∧ times[t]? = some time ∧
        BarSays label time (heldBefore c.initCapacity (fun t => (dispatchOf s r k).cap g d i t) t)
          ((dispatchOf s r k).cap g d i t) bar ∧
        (WithinBounds bar ↔ (dispatchOf s r k).cap g d i t ≤
          heldBefore c.initCapacity (fun t => (dispatchOf s r k).cap g d i t) t) ∧
        (bar.high < bar.low ↔ ¬ WithinBounds bar) := by
  obtain ⟨opens, closes, h1, hC⟩ := C59_partial hs hr ha h1s hn hc hk hf hh
  have hst : a.study = s := (init_ok ha).1
  have hl : times.length = s.horizon := by
    unfold Viewer.timeIndex at ht
    split at ht
    · rw [← Except.ok.inj ht]; simp
    · rw [← Except.ok.inj ht]; simp
    · cases ht
  refine ⟨Viewer.candlesChart label times opens closes, ?_, ?_, ?_⟩
  · unfold Viewer.candlesDrawn
    rw [hst, ht, h1]
    rfl
  · simp [Viewer.candlesChart, hl, hC.numOpens, hC.numCloses]
  · intro t htt
    have hclose := hC.close t htt
    have hopen : opens[t]? = some (heldBefore c.initCapacity (fun t => (dispatchOf s r k).cap g d i t) t) := by
      cases t with
      | zero => exact hC.first hh
      | succ u => rw [hC.next u htt, hC.close u (by omega)]; rfl
    have htime : times[t]? = some times[t] := List.getElem?_eq_getElem (by omega)
    refine ⟨_, times[t], ?_, htime, barOf_says label _ _ _, ?_, ?_⟩
    · unfold Viewer.candlesChart
      rw [List.getElem?_map, List.getElem?_zip_eq_some (z := (times[t], _, _)) |>.mpr
        ⟨htime, List.getElem?_zip_eq_some (z := (_, _)) |>.mpr ⟨hopen, hclose⟩⟩]
      rfl
    · simp only [WithinBounds, Viewer.barOf, le_refl, true_and, and_self]
    · simp only [WithinBounds, Viewer.barOf, le_refl, true_and, and_self, not_le]

/-- C107: for levels that are not negative, the flow that the text says is the difference of the levels that it says, up
to one -/
theorem C107_text {before after : ℚ} {x y z : ℤ} (hb : 0 ≤ before) (ha : 0 ≤ after) (hx : Whole before x)
    (hy : Whole after y) (hz : Whole (after - before) z) : |y - x - z| ≤ 1 := by
  obtain ⟨-, x1, x2⟩ := hx.1 hb
  obtain ⟨-, y1, y2⟩ := hy.1 ha
  have key : y - x - z < 2 ∧ -2 < y - x - z := by
    rcases le_total 0 (after - before) with h | h
    · obtain ⟨-, z1, z2⟩ := hz.1 h
      constructor
      · have : ((y - x - z : ℤ) : ℚ) < (2 : ℤ) := by push_cast; linarith
        exact_mod_cast this
      · have : ((-2 : ℤ) : ℚ) < ((y - x - z : ℤ) : ℚ) := by push_cast; linarith
        exact_mod_cast this
    · obtain ⟨-, z1, z2⟩ := hz.2 h
      constructor
      · have : ((y - x - z : ℤ) : ℚ) < (2 : ℤ) := by push_cast; linarith
        exact_mod_cast this
      · have : ((-2 : ℤ) : ℚ) < ((y - x - z : ℤ) : ℚ) := by push_cast; linarith
        exact_mod_cast this
  rw [abs_le]
  omega

/-- C107 refuted: for a storage that fills, `high` is below `low`; whatever the times -/
theorem C107_refuted (label : ℚ → String) : ∃ r a bars bar, solveLp (fun _ => tankAnswer) ⟨[], [], 0, 0⟩ tank = .ok r ∧
    Analyzer.init (fun _ _ _ => .nan) tank r = .ok a ∧
    Viewer.candlesDrawn label none none a "n" "a" "tank" 0 = .ok bars ∧ bars[0]? = some bar ∧ bar.opens = 5 ∧
    bar.close = 6 ∧ bar.high < bar.low ∧ ¬ WithinBounds bar := by
  have hr := Ready.solve tank_ready (fun _ => tankAnswer) ⟨[], [], 0, 0⟩
  obtain ⟨a, ha⟩ := init_total tank_built (mirrors_result (Built.inv tank_built) _ _) (fun _ _ _ => .nan)
    tank_ready.complete (by decide +kernel) (by decide +kernel)
  obtain ⟨c, hc⟩ : ∃ c, (inNode tank "n" "a").storages[0]? = some c :=
    Option.isSome_iff_exists.mp (by decide +kernel)
  have h1 : ((inNode tank "n" "a").storages[0]?).map (fun c => (c.name, c.initCapacity)) = some ("tank", 5) := by
    decide +kernel
  rw [hc, Option.map_some, Option.some.injEq, Prod.mk.injEq] at h1
  obtain ⟨bars, h, -, hC⟩ := C107_partial tank_ready hr ha (by decide +kernel)
    (hasNode_inNode (by decide +kernel)) hc (k := 0) (by decide +kernel) tankAnswer_feasible (by decide +kernel) label
    (start := none) (stop := none) rfl
  rw [h1.1] at h
  obtain ⟨bar, time, e1, -, e2, e3, e4⟩ := hC 0 (by decide +kernel)
  have hcap : (dispatchOf tank (resultAll tank (valsOf (fun _ => tankAnswer) tank) ⟨[], [], 0, 0⟩) 0).cap "n" "a" 0 0
      = 6 := by decide +kernel
  rw [hcap] at e2 e3
  simp only [heldBefore, h1.2] at e2 e3
  have hw : ¬ WithinBounds bar := fun hw => absurd (e3.mp hw) (by norm_num)
  refine ⟨_, a, bars, bar, hr, ha, h, e1, e2.opens, e2.close, e4.mpr hw, hw⟩

/-- C107 refuted: the flow that the text says is not the difference of the levels that it says -/
theorem C107_text_refuted (label : ℚ → String) (t : ℚ) :
    (Viewer.barOf label t (1 / 2) (6 / 5)).text = label t ++ "<br>Begin=0<br>End=1<br>Flow=0" := by
  have h : Viewer.cut (1 / 2) = 0 ∧ Viewer.cut (6 / 5) = 1 ∧ Viewer.cut (6 / 5 - 1 / 2) = 0 := by decide +kernel
  show label t ++ "<br>Begin=" ++ toString (Viewer.cut (1 / 2)) ++ "<br>End=" ++ toString (Viewer.cut (6 / 5)) ++
    "<br>Flow=" ++ toString (Viewer.cut (6 / 5 - 1 / 2)) = _
  rw [h.1, h.2.1, h.2.2]
  simp only [String.append_assoc]
  congr 1

/-! ### C108 -/

/-- C108 (partial): the scale used for nodes goes from 0 to 1 in steps of the same length, with the colours of the map.
Missing: arrows (`C108_refuted`). -/
theorem C108_scale_partial (cmap : Viewer.ColorMap) (hc : UnitColors cmap) {res : ℕ} (h : 1 < res) :
    ∃ l, Viewer.colorScale cmap res = .ok l ∧ EvenlySpaced 0 1 res (l.map Prod.fst) ∧
      ∀ p ∈ l, Written p.2 (cmap (.num p.1)) := by
  refine ⟨_, if_neg (by omega), ?_, ?_⟩
  · obtain ⟨l, h1, h2⟩ := (C96 res (some 0) (some 1)).2.1 0 1 rfl rfl
    have e := Except.ok.inj h1
    rw [← e] at h2
    rw [List.map_map]
    convert h2 using 1
    apply List.map_congr_left
    intro k _
    simp
  · intro p hp
    rw [List.mem_map] at hp
    obtain ⟨k, -, rfl⟩ := hp
    have key : ∀ q : ℚ, 0 ≤ q → |((Viewer.cut (q * 255) : ℤ) : ℚ) - 255 * q| ≤ 1 := by
      intro q hq
      obtain ⟨-, h1, h2⟩ := (cut_whole (q * 255)).1 (by linarith)
      rw [abs_le]
      constructor <;> linarith
    obtain ⟨⟨h1, -⟩, ⟨h2, -⟩, h3, -⟩ := hc (.num (k * (1 / ((res : ℚ) - 1))))
    exact ⟨key _ h1, key _ h2, key _ h3⟩

/-- C108 (partial): there is a scale for every number of colours except one, for which `matplotlib_to_plotly` raises -/
theorem C108_one_partial (cmap : Viewer.ColorMap) (res : ℕ) :
    ((∃ l, Viewer.colorScale cmap res = .ok l ∧ l.length = res) ↔ res ≠ 1) ∧
    (res = 1 → Viewer.colorScale cmap res = .error .zeroDivisionError) := by
  unfold Viewer.colorScale
  refine ⟨⟨?_, fun h => ⟨_, if_neg h, by simp⟩⟩, fun h => if_pos h⟩
  rintro ⟨l, hl, -⟩ rfl
  simp at hl

example : Viewer.colorScale (fun _ => ⟨0, 0, 0⟩) 1 = .error .zeroDivisionError := (C108_one_partial _ 1).2 rfl

/-- C108 refuted: every arrow of the map is black, whatever the colour map and the flows -/
theorem C108_refuted (cmap : Viewer.ColorMap) (hc : UnitColors cmap) (x : Viewer.Arrow) :
    Black (Viewer.arrowColor cmap x) := hc x.shade

/-- C108 refuted: the colour written for an arrow is that of the map only if this is black too -/
theorem C108_arrow_refuted (cmap : Viewer.ColorMap) (x : Viewer.Arrow)
    (h : Written (Viewer.arrowColor cmap x) (cmap x.shade)) :
    (cmap x.shade).red ≤ 1 / 254 ∧ (cmap x.shade).green ≤ 1 / 254 ∧ (cmap x.shade).blue ≤ 1 / 254 := by
  obtain ⟨h1, h2, h3⟩ := h
  unfold Viewer.arrowColor at h1 h2 h3
  rw [abs_le] at h1 h2 h3
  refine ⟨?_, ?_, ?_⟩ <;> linarith

/-! ### Concrete cases -/

/-- a map from blue to red through white -/
def blueRed : Viewer.ColorMap
  | .num q => if q ≤ 1 / 2 then if 0 ≤ q then ⟨2 * q, 2 * q, 1⟩ else ⟨0, 0, 1⟩
    else if q ≤ 1 then ⟨1, 2 - 2 * q, 2 - 2 * q⟩ else ⟨1, 0, 0⟩
  | .inf false => ⟨1, 0, 0⟩
  | _ => ⟨0, 0, 0⟩

theorem blueRed_unit : UnitColors blueRed := by
  intro x
  unfold blueRed
  split
  · split_ifs <;> refine ⟨⟨?_, ?_⟩, ⟨?_, ?_⟩, ?_, ?_⟩ <;> simp only [] <;> linarith
  · norm_num
  · norm_num

example : ∃ l, Viewer.colorScale blueRed 255 = .ok l ∧ EvenlySpaced 0 1 255 (l.map Prod.fst) ∧
    ∀ p ∈ l, Written p.2 (blueRed (.num p.1)) := C108_scale_partial blueRed blueRed_unit (by norm_num)

/-- half of the limit: three quarters of the map, bright red there and black on the chart -/
example : Viewer.arrowColor blueRed (Viewer.arrowOf (0, 0) (10, 0) 3 6) = ⟨1, 1 / 2, 1 / 2⟩ ∧
    ¬ Written (Viewer.arrowColor blueRed (Viewer.arrowOf (0, 0) (10, 0) 3 6))
      (blueRed (Viewer.arrowOf (0, 0) (10, 0) 3 6).shade) := by
  have h : Viewer.arrowColor blueRed (Viewer.arrowOf (0, 0) (10, 0) 3 6) = ⟨1, 1 / 2, 1 / 2⟩ := by decide +kernel
  refine ⟨h, fun hw => ?_⟩
  have h1 := (C108_arrow_refuted blueRed _ hw).1
  have h2 : (blueRed (Viewer.arrowOf (0, 0) (10, 0) 3 6).shade).red = 1 := by decide +kernel
  rw [h2] at h1
  norm_num at h1

example : Black (Viewer.arrowColor blueRed (Viewer.arrowOf (0, 0) (10, 0) 3 6)) :=
  C108_refuted blueRed blueRed_unit _

/-- from 4.5 to 6.25: 4, 6 and 1 -/
example : |((6 : ℤ) - 4 - 1)| ≤ 1 := C107_text (before := 9 / 2) (after := 25 / 4) (by norm_num) (by norm_num)
  (by unfold Whole; norm_num) (by unfold Whole; norm_num) (by unfold Whole; norm_num)

end Hadar.Props
