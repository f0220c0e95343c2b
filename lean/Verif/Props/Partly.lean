import Verif.Spec.Partly
import Verif.Proofs.Vertex
import Verif.Props.Timing
import Verif.Props.Margin

/-!
# C127: few elements need to be partly used
-/

namespace Hadar.Props

open Hadar Spec Minimum

variable {s : Study} {k : ℕ} {solver : Solver} {b : Benchmark} {r : Result} {g d : String} {t i j : ℕ} {n : InputNode}

/-- the quantity of a variable -/
def quantityOf : Var → Quantity × ℕ
  | .lol t g d i => (.cut g d i, t)
  | .prod t g d i => (.produced g d i, t)
  | .cap t g d i => (.held g d i, t)
  | .fin t g d i => (.filled g d i, t)
  | .fout t g d i => (.emptied g d i, t)
  | .link t g d i => (.sent g d i, t)
  | .convSrc t c src => (.taken c (srcPair src), t)
  | .convDest t c => (.given c, t)

theorem rows_places (s : Study) (k : ℕ) : (Minimum.rowsOf (fullLog s k)).length ≤ placesWithin s := by
  rw [rowsOf_full, List.length_flatMap]
  unfold placesWithin
  refine (List.sum_le_card_nsmul _ _ fun m hm => ?_).trans (by rw [List.length_map, List.length_range, smul_eq_mul])
  obtain ⟨t, _, rfl⟩ := List.mem_map.mp hm
  simp only [List.length_append, List.length_flatMap, List.length_map]
  refine Nat.add_le_add_right ?_ _
  refine List.sum_le_sum fun p _ => List.sum_le_sum fun q _ => ?_
  rcases q.2.storages with _ | ⟨st, l⟩
  · simp
  · simp
    omega

variable {x y : Var → ℚ} {v : Var} {u : ℚ}

theorem limit_cases (hi : StudyInv s) (hf : Cmd.Feasible (fullLog s k) x) (hm : Cmd.numVar v 0 u ∈ fullLog s k) :
    x v = 0 ∨ x v = u ∨ Loose (fullLog s k) (topOf s k) x v := by
  have hu := (numVar_top hi hm).2
  have hb := hf.1.1 v 0 u hm
  by_cases h0 : x v = 0
  · exact .inl h0
  · by_cases h1 : x v = u
    · exact .inr (.inl h1)
    · exact .inr (.inr ⟨.inl ⟨u, hm⟩, lt_of_le_of_ne hb.1 (Ne.symm h0), fun _ => hu ▸ lt_of_le_of_ne hb.2 h1⟩)

theorem not_loose (hi : StudyInv s) (hm : Cmd.numVar v 0 u ∈ fullLog s k) (h : x v = 0 ∨ x v = u) :
    ¬ Loose (fullLog s k) (topOf s k) x v := by
  rintro ⟨_, h1, h2⟩
  have hu := (numVar_top hi hm).2
  rcases h with h | h
  · linarith
  · have := h2 ⟨0, hu ▸ hm⟩
    linarith

theorem atLimits_of (hi : StudyInv s) (hf : Cmd.Feasible (fullLog s k) y) {L : List (Quantity × ℕ)}
    (hL : ∀ v, Loose (fullLog s k) (topOf s k) y v → quantityOf v ∈ L) : AtLimitsBut s k (ofVars y) L where
  consumptions g d n hn i c hc t ht := (limit_cases hi hf (numVar_lol hn ht hc)).imp_right (Or.imp_right (hL _))
  productions g d n hn i c hc t ht := (limit_cases hi hf (numVar_prod hn ht hc)).imp_right (Or.imp_right (hL _))
  held g d n hn i c hc t ht := (limit_cases hi hf (v := .cap t g d i) (numVar_stor hn ht hc (by simp))).imp_right (Or.imp_right (hL _))
  filled g d n hn i c hc t ht := (limit_cases hi hf (v := .fin t g d i) (numVar_stor hn ht hc (by simp))).imp_right (Or.imp_right (hL _))
  emptied g d n hn i c hc t ht := (limit_cases hi hf (v := .fout t g d i) (numVar_stor hn ht hc (by simp))).imp_right (Or.imp_right (hL _))
  links g d n hn i c hc t ht := (limit_cases hi hf (numVar_link hn ht hc)).imp_right (Or.imp_right (hL _))
  convSrc p hp g d r hr t ht := by
    by_cases hz : val r k t = 0
    · have hm := numVarInf_src hi hp hr ht hz
      by_cases h0 : y (.convSrc t p.1 [g, d]) = 0
      · exact .inl h0
      · refine .inr (.inr (hL (.convSrc t p.1 [g, d]) ⟨.inr ⟨_, hm⟩, lt_of_le_of_ne (hf.1.2 _ _ _ hm).1 (Ne.symm h0), ?_⟩))
        rintro ⟨lb, hm'⟩
        exact absurd hz (numVar_ratio hi hp hr hm')
    · rcases limit_cases hi hf (numVar_src hi hp hr ht hz) with h | h | h
      · exact .inl h
      · exact .inr (.inl ⟨hz, h⟩)
      · exact .inr (.inr (hL _ h))
  convDest p hp t ht := (limit_cases hi hf (numVar_dest hi hp ht)).imp_right (Or.imp_right (hL _))

theorem keepsLimits_of (hi : StudyInv s) (h : ∀ v, ¬ Loose (fullLog s k) (topOf s k) x v → y v = x v) :
    KeepsLimits s k (ofVars x) (ofVars y) where
  consumptions g d n hn i c hc t ht h0 := h _ (not_loose hi (numVar_lol hn ht hc) h0)
  productions g d n hn i c hc t ht h0 := h _ (not_loose hi (numVar_prod hn ht hc) h0)
  held g d n hn i c hc t ht h0 := h _ (not_loose hi (v := .cap t g d i) (numVar_stor hn ht hc (by simp)) h0)
  filled g d n hn i c hc t ht h0 := h _ (not_loose hi (v := .fin t g d i) (numVar_stor hn ht hc (by simp)) h0)
  emptied g d n hn i c hc t ht h0 := h _ (not_loose hi (v := .fout t g d i) (numVar_stor hn ht hc (by simp)) h0)
  links g d n hn i c hc t ht h0 := h _ (not_loose hi (numVar_link hn ht hc) h0)
  convSrc p hp g d r hr t ht h0 := by
    rcases h0 with h0 | ⟨hz, h0⟩
    · exact h (.convSrc t p.1 [g, d]) fun hl => absurd h0 hl.2.1.ne'
    · exact h _ (not_loose hi (numVar_src hi hp hr ht hz) (.inr h0))
  convDest p hp t ht h0 := h _ (not_loose hi (numVar_dest hi hp ht) h0)

/-- C127: some dispatch with the cost of the result has every quantity at zero or at most but one for each node, storage and source of a
converter at each time; it leaves what the result has at a limit -/
theorem C127 (hs : Ready s) (hself : NoSelfLink s) (h1 : OneStorage s) (hk : k < s.nbScn) (hr : solveLp solver b s = .ok r)
    (ha : Answers solver s k Cmd.Optimal) :
    ∃ D L, Spec.Feasible s k D ∧ cost s k D = cost s k (dispatchOf s r k) ∧ KeepsLimits s k (dispatchOf s r k) D ∧
      L.length ≤ placesWithin s ∧ AtLimitsBut s k D L := by
  have hi := Built.inv hs.built
  have hD := (C22_exact hs hr hk).2.mp ha
  have ho : Cmd.Optimal (fullLog s k) (toVars (dispatchOf s r k)) := by
    refine ⟨(feasible_iff hi k _).mpr (by rw [ofVars_toVars]; exact hD.1), fun z hz => ?_⟩
    rw [objective_eq hi, objective_eq hi, ofVars_toVars]
    exact hD.2 _ ((feasible_iff hi k z).mp hz)
  have hlow : ∀ v lb, LowerOf (fullLog s k) v lb → lb = 0 := by
    rintro v lb (⟨ub, hm⟩ | ⟨pos, hm⟩)
    · exact (numVar_top hi hm).1
    · exact numVarInf_low hm
  have hup : ∀ v ub, UpperOf (fullLog s k) v ub → ub = topOf s k v := by
    rintro v ub ⟨lb, hm⟩
    exact (numVar_top hi hm).2
  obtain ⟨y, hy, hkeep, hcard⟩ := exists_corner hlow hup ho
  refine ⟨ofVars y, (looseSet (fullLog s k) (topOf s k) y).toList.map quantityOf,
    feasible_of_code hself h1 ((feasible_iff hi k y).mp hy.1), ?_, ?_, ?_, ?_⟩
  · have e1 := ho.2 y hy.1
    have e2 := hy.2 _ ho.1
    rw [objective_eq hi, objective_eq hi, ofVars_toVars] at e1 e2
    exact le_antisymm e2 e1
  · have := keepsLimits_of hi hkeep
    rwa [ofVars_toVars] at this
  · rw [List.length_map, Finset.length_toList]
    exact hcard.trans (rows_places s k)
  · exact atLimits_of hi hy.1 fun v hv => List.mem_map_of_mem (Finset.mem_toList.mpr (mem_looseSet.mpr hv))

/-- C127: in every result, what is partly produced or partly cut at the same node and time costs the same -/
theorem C127_same (hs : Ready s) (hself : NoSelfLink s) (hk : k < s.nbScn) (hr : solveLp solver b s = .ok r)
    (ha : Answers solver s k Cmd.Optimal) (ht : t < s.horizon) {c c' : ℚ} (h : Worth s k (dispatchOf s r k) g d t c)
    (h' : Worth s k (dispatchOf s r k) g d t c') : c = c' := by
  obtain ⟨P, he⟩ := C75 hs hself hk hr ha
  rw [← worth_price he ht h, ← worth_price he ht h']

/-- C127: where no two productions cost the same, at most one is partly used -/
theorem C127_one (hs : Ready s) (hself : NoSelfLink s) (hk : k < s.nbScn) (hr : solveLp solver b s = .ok r)
    (ha : Answers solver s k Cmd.Optimal) (ht : t < s.horizon) (hn : HasNode s g d n)
    (hdiff : ∀ (i j : ℕ) p q, n.productions[i]? = some p → n.productions[j]? = some q → val p.cost k t = val q.cost k t → i = j)
    {p q : Production} (hp : n.productions[i]? = some p) (hq : n.productions[j]? = some q)
    (h0 : 0 < (dispatchOf s r k).prod g d i t) (h1 : (dispatchOf s r k).prod g d i t < val p.quantity k t)
    (h2 : 0 < (dispatchOf s r k).prod g d j t) (h3 : (dispatchOf s r k).prod g d j t < val q.quantity k t) : i = j :=
  hdiff i j p q hp hq (C127_same hs hself hk hr ha ht (.inl ⟨n, i, p, hn, hp, h0, h1, rfl⟩) (.inl ⟨n, j, q, hn, hq, h2, h3, rfl⟩))

/-- C127: between the two ends of a link that is partly used, what is partly produced or cut costs the cost of the link more at the far
end -/
theorem C127_link (hs : Ready s) (hself : NoSelfLink s) (hk : k < s.nbScn) (hr : solveLp solver b s = .ok r)
    (ha : Answers solver s k Cmd.Optimal) (ht : t < s.horizon) (hn : HasNode s g d n) {l : Link} (hl : n.links[i]? = some l)
    (h0 : 0 < (dispatchOf s r k).link g d i t) (h1 : (dispatchOf s r k).link g d i t < val l.quantity k t) {c c' : ℚ}
    (h : Worth s k (dispatchOf s r k) g d t c) (h' : Worth s k (dispatchOf s r k) g l.dest t c') : c' = c + val l.cost k t := by
  obtain ⟨P, he⟩ := C75 hs hself hk hr ha
  have e1 := worth_price he ht h
  have e2 := worth_price he ht h'
  have hb := he.links g d n hn i l hl t ht
  rcases lt_trichotomy (val l.cost k t + P.node g d t - P.node g l.dest t) 0 with hx | hx | hx
  · exact absurd (hb.2 hx) (ne_of_lt h1)
  · linarith
  · exact absurd (hb.1 hx) (ne_of_gt h0)

/-! ### Concrete cases -/

/-- gas and coal, which cost the same, are both partly used in this result; in the dispatch of C127 at most one quantity is, and wind, which
runs fully, still does -/
example : ∃ D L, Spec.Feasible tiedStudy 0 D ∧ cost tiedStudy 0 D = cost tiedStudy 0 (dispatchOf tiedStudy (tiedResult 1) 0) ∧
    KeepsLimits tiedStudy 0 (dispatchOf tiedStudy (tiedResult 1) 0) D ∧ L.length ≤ 1 ∧ AtLimitsBut tiedStudy 0 D L :=
  C127 tied_ready tied_noSelf tied_one (by decide +kernel) (Ready.solve tied_ready _ _) (tiedAnswer_optimal (.inl rfl))

example : (20 : ℚ) = 20 := C127_same tied_ready tied_noSelf (by decide +kernel) (Ready.solve tied_ready (fun _ => tiedAnswer 1) ⟨[], [], 0, 0⟩)
  (tiedAnswer_optimal (.inl rfl)) (by decide +kernel) tied_worth
  (.inl ⟨_, 2, ⟨"coal", ⟨.scalar 20, 1, 1⟩, ⟨.scalar 5, 1, 1⟩⟩, tied_node, by decide +kernel, by decide +kernel, by decide +kernel,
    by decide +kernel⟩)

/-- gas at a node, oil at another and a line between them, none of them fully used -/
def evenLineCalls : List Call :=
  [.studyNetwork "elec", .netNode 0 "a", .nodeConsumption 0 "load" (.num 100) (.num 2), .nodeProduction 0 "gas" (.num 10) (.num 10),
   .nodeProduction 0 "fuel" (.num 70) (.num 10),
   .netNode 0 "b", .nodeConsumption 0 "load" (.num 100) (.num 3), .nodeProduction 0 "oil" (.num 12) (.num 4),
   .netLink 0 "a" "b" (.num 2) (.num 5)]

def evenLineStudy : Study := made 1 1 evenLineCalls

theorem evenLine_ready : Ready evenLineStudy where
  built := ⟨1, 1, _, rawCalls_of (by decide +kernel), rfl⟩
  complete := by unfold CompleteConverters; decide +kernel
  ratios := RatiosNonzero.usable (by unfold RatiosNonzero; decide +kernel)
  clean := cleanSources_of (by decide +kernel)

def evenLineAnswer : Var → ℚ
  | .prod _ "elec" "a" 0 => 3
  | .link _ "elec" "a" 0 => 1
  | .prod _ "elec" "b" 0 => 2
  | _ => 0

theorem evenLine_noSelf : NoSelfLink evenLineStudy := noSelf_of (by decide +kernel)

theorem evenLine_optimal : Answers (fun _ => evenLineAnswer) evenLineStudy 0 Cmd.Optimal :=
  optimal_of_prices (P := ⟨fun _ d _ => if d = "a" then 10 else 12, fun _ _ _ _ => 0, fun _ _ _ => 0⟩) evenLine_ready evenLine_noSelf
    (oneStorage_of (by decide +kernel)) (by decide +kernel) (Cmd.feasible_of_check (by decide +kernel))
    (equilibrium_of (by decide +kernel) (by decide +kernel))

def evenLineResult : Result := resultAll evenLineStudy (valsOf (fun _ => evenLineAnswer) evenLineStudy) ⟨[], [], 0, 0⟩

theorem evenLine_solved : solveLp (fun _ => evenLineAnswer) ⟨[], [], 0, 0⟩ evenLineStudy = .ok evenLineResult := Ready.solve evenLine_ready _ _

theorem evenLine_a : HasNode evenLineStudy "elec" "a" (inNode evenLineStudy "elec" "a") := hasNode_inNode (by decide +kernel)

theorem evenLine_b : HasNode evenLineStudy "elec" "b" (inNode evenLineStudy "elec" "b") := hasNode_inNode (by decide +kernel)

/-- energy costs 10 at `a`, 2 on the line and 12 at `b` -/
example : (12 : ℚ) = 10 + 2 :=
  C127_link (i := 0) (l := ⟨"b", ⟨.scalar 5, 1, 1⟩, ⟨.scalar 2, 1, 1⟩⟩) evenLine_ready evenLine_noSelf (by decide +kernel) evenLine_solved
    evenLine_optimal (t := 0) (by decide +kernel) evenLine_a (by decide +kernel) (by decide +kernel) (by decide +kernel)
    (.inl ⟨_, 0, ⟨"gas", ⟨.scalar 10, 1, 1⟩, ⟨.scalar 10, 1, 1⟩⟩, evenLine_a, by decide +kernel, by decide +kernel, by decide +kernel,
      by decide +kernel⟩)
    (.inl ⟨_, 0, ⟨"oil", ⟨.scalar 12, 1, 1⟩, ⟨.scalar 4, 1, 1⟩⟩, evenLine_b, by decide +kernel, by decide +kernel, by decide +kernel,
      by decide +kernel⟩)

/-- at `a`, where gas is partly used, no other production is -/
example {j : ℕ} {q : Production} (hq : (inNode evenLineStudy "elec" "a").productions[j]? = some q)
    (h2 : 0 < (dispatchOf evenLineStudy evenLineResult 0).prod "elec" "a" j 0)
    (h3 : (dispatchOf evenLineStudy evenLineResult 0).prod "elec" "a" j 0 < val q.quantity 0 0) : 0 = j :=
  C127_one (i := 0) (p := ⟨"gas", ⟨.scalar 10, 1, 1⟩, ⟨.scalar 10, 1, 1⟩⟩) evenLine_ready evenLine_noSelf (by decide +kernel)
    evenLine_solved evenLine_optimal (t := 0) (by decide +kernel) evenLine_a (fun i j p q hp hq he => by
      have e : (inNode evenLineStudy "elec" "a").productions =
          [⟨"gas", ⟨.scalar 10, 1, 1⟩, ⟨.scalar 10, 1, 1⟩⟩, ⟨"fuel", ⟨.scalar 70, 1, 1⟩, ⟨.scalar 10, 1, 1⟩⟩] := by decide +kernel
      rw [e] at hp hq
      have v1 : val (⟨.scalar 10, 1, 1⟩ : NumVal) 0 0 = 10 := by decide +kernel
      have v2 : val (⟨.scalar 70, 1, 1⟩ : NumVal) 0 0 = 70 := by decide +kernel
      match i, j with
      | 0, 0 => rfl
      | 1, 1 => rfl
      | 0, 1 =>
        simp at hp hq
        subst hp
        subst hq
        simp only [v1, v2] at he
        norm_num at he
      | 1, 0 =>
        simp at hp hq
        subst hp
        subst hq
        simp only [v1, v2] at he
        norm_num at he
      | i + 2, _ => simp at hp
      | _, j + 2 => simp at hq)
    (by decide +kernel) hq (by decide +kernel) (by decide +kernel) h2 h3

/-- C127: the result itself may have more quantities partly used: that depends on the solver -/
theorem C127_result_refuted : ∃ s b solver r, Ready s ∧ NoSelfLink s ∧ OneStorage s ∧ solveLp solver b s = .ok r ∧
    Answers solver s 0 Cmd.Optimal ∧ placesWithin s = 1 ∧ ¬ ∃ L, L.length ≤ 1 ∧ AtLimitsBut s 0 (dispatchOf s r 0) L := by
  refine ⟨tiedStudy, ⟨[], [], 0, 0⟩, fun _ => tiedAnswer 1, tiedResult 1, tied_ready, tied_noSelf, tied_one, Ready.solve tied_ready _ _,
    tiedAnswer_optimal (.inl rfl), by decide +kernel, ?_⟩
  rintro ⟨L, hL, h⟩
  have h1 := h.productions "elec" "a" _ tied_node 1 ⟨"gas", ⟨.scalar 20, 1, 1⟩, ⟨.scalar 5, 1, 1⟩⟩ (by decide +kernel) 0 (by decide +kernel)
  have h2 := h.productions "elec" "a" _ tied_node 2 ⟨"coal", ⟨.scalar 20, 1, 1⟩, ⟨.scalar 5, 1, 1⟩⟩ (by decide +kernel) 0 (by decide +kernel)
  have e1 : (dispatchOf tiedStudy (tiedResult 1) 0).prod "elec" "a" 1 0 = 1 := by decide +kernel
  have e2 : (dispatchOf tiedStudy (tiedResult 1) 0).prod "elec" "a" 2 0 = 2 := by decide +kernel
  have e3 : val (⟨.scalar 5, 1, 1⟩ : NumVal) 0 0 = 5 := by decide +kernel
  rw [e1, e3] at h1
  rw [e2, e3] at h2
  have m1 := (h1.resolve_left (by norm_num)).resolve_left (by norm_num)
  have m2 := (h2.resolve_left (by norm_num)).resolve_left (by norm_num)
  match L, hL with
  | [], _ => simp at m1
  | [a], _ =>
    simp only [List.mem_singleton] at m1 m2
    rw [← m1] at m2
    simp at m2

end Hadar.Props
