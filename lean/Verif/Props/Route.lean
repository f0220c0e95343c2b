import Verif.Spec.Route
import Verif.Props.Prices
import Verif.Props.Invest

/-!
# C123: energy takes the cheapest ways
-/

namespace Hadar.Props

open Hadar Spec

variable {s : Study} {k : ℕ} {solver : Solver} {b : Benchmark} {r : Result} {P : Prices} {D : Dispatch} {g d e f : String} {t : ℕ} {c c' : ℚ}

theorem flows_price (he : Equilibrium s k D P) (ht : t < s.horizon) (h : Flows s k D g t d e c) : P.node g d t + c ≤ P.node g e t := by
  induction h with
  | here d => simp
  | along hn hl hpos _ ih =>
    have hb := (he.links _ _ _ hn _ _ hl t ht).1
    have : ¬ _ := fun h0 => absurd (hb h0) (ne_of_gt hpos)
    linarith [not_lt.1 this]

theorem spare_reaches (h : Spare s k D g t d e c) : Reaches s k D g t d e c := by
  induction h with
  | here d => exact .here d
  | along hn hl hlt _ ih => exact .more hn hl hlt ih

/-- C123: of two ways from a node to another, energy does not take one that costs more than one where there is room left -/
theorem C123 (hs : Ready s) (hself : NoSelfLink s) (hk : k < s.nbScn) (hr : solveLp solver b s = .ok r)
    (ha : Answers solver s k Cmd.Optimal) (ht : t < s.horizon) (hf : Flows s k (dispatchOf s r k) g t d e c)
    (hw : Spare s k (dispatchOf s r k) g t d e c') : c ≤ c' := by
  obtain ⟨P, he⟩ := C75 hs hself hk hr ha
  linarith [flows_price he ht hf, reaches_price he ht (spare_reaches hw)]

/-- C123: energy does not go in a circle of links whose costs add up to more than zero -/
theorem C123_circle (hs : Ready s) (hself : NoSelfLink s) (hk : k < s.nbScn) (hr : solveLp solver b s = .ok r)
    (ha : Answers solver s k Cmd.Optimal) (ht : t < s.horizon) (hf : Flows s k (dispatchOf s r k) g t d d c) : c ≤ 0 :=
  C123 hs hself hk hr ha ht hf (.here d)

/-- C123: of two opposite links, if carrying a unit there and back costs something, one carries nothing -/
theorem C123_opposite (hs : Ready s) (hself : NoSelfLink s) (hk : k < s.nbScn) (hr : solveLp solver b s = .ok r)
    (ha : Answers solver s k Cmd.Optimal) (ht : t < s.horizon) {n m : InputNode} {i j : ℕ} {l l' : Link}
    (hn : HasNode s g d n) (hl : n.links[i]? = some l) (hm : HasNode s g l.dest m) (hl' : m.links[j]? = some l') (hd : l'.dest = d)
    (hc : 0 < val l.cost k t + val l'.cost k t) :
    (dispatchOf s r k).link g d i t = 0 ∨ (dispatchOf s r k).link g l.dest j t = 0 := by
  by_contra hno
  push Not at hno
  have hD := C18_bounds hs hr hk fun st lg hl => (ha st lg hl).1.1
  have p1 := (hD.links g d n hn i l hl t ht).1
  have p2 := (hD.links g l.dest m hm j l' hl' t ht).1
  have := C123_circle hs hself hk hr ha ht (.along hn hl (lt_of_le_of_ne p1 (Ne.symm hno.1))
    (.along hm hl' (lt_of_le_of_ne p2 (Ne.symm hno.2)) (by rw [hd]; exact .here d)))
  linarith

/-! ### A concrete case: from `a` to `b` there is a link for 3, and a way by `c` for 1 + 1; and a link back -/

def wayCalls : List Call :=
  [.studyNetwork "elec", .netNode 0 "a", .nodeProduction 0 "nuke" (.num 20) (.num 10), .netNode 0 "b",
   .nodeConsumption 0 "load" (.num 100) (.num 5), .netNode 0 "c", .netLink 0 "a" "b" (.num 3) (.num 3),
   .netLink 0 "a" "c" (.num 1) (.num 9), .netLink 0 "c" "b" (.num 1) (.num 9), .netLink 0 "b" "a" (.num 1) (.num 9)]

def wayStudy : Study := made 1 1 wayCalls

def wayAnswer : Var → ℚ
  | .prod .. => 5
  | .link _ _ "a" 1 => 5
  | .link _ _ "c" 0 => 5
  | _ => 0

def wayPrices : Prices where
  node _ d _ := if d = "a" then 20 else if d = "c" then 21 else 22
  stored _ _ _ _ := 0
  used _ _ _ := 0

theorem way_ready : Ready wayStudy where
  built := ⟨1, 1, wayCalls, rawCalls_of (by decide +kernel), rfl⟩
  complete := by unfold CompleteConverters; decide +kernel
  ratios := RatiosNonzero.usable (by unfold RatiosNonzero; decide +kernel)
  clean := cleanSources_of (by decide +kernel)

theorem way_noSelf : NoSelfLink wayStudy := noSelf_of (by decide +kernel)
theorem way_one : OneStorage wayStudy := oneStorage_of (by decide +kernel)

/-- answers with prices are optimal -/
theorem optimal_of_prices {x : Var → ℚ} (hs : Ready s) (hself : NoSelfLink s) (h1 : OneStorage s) (hk : k < s.nbScn)
    (hf : Cmd.Feasible (fullLog s k) x) (he : Equilibrium s k (ofVars x) P) : Answers (fun _ => x) s k Cmd.Optimal := by
  intro steps log h
  have e : log = fullLog s k := by
    rw [Ready.build hs hk] at h
    cases h
    rfl
  subst e
  refine ⟨hf, fun y hy => ?_⟩
  have hi := Built.inv hs.built
  rw [objective_eq hi, objective_eq hi]
  exact C75_certificate hs (feasible_of_code hself h1 ((feasible_iff hi _ _).mp hf)) he
    (feasible_of_code hself h1 ((feasible_iff hi _ _).mp hy))

theorem way_optimal : Answers (fun _ => wayAnswer) wayStudy 0 Cmd.Optimal :=
  optimal_of_prices (P := wayPrices) way_ready way_noSelf way_one (by decide +kernel) (Cmd.feasible_of_check (by decide +kernel))
    (prices_of (by decide +kernel) (by decide +kernel) (by decide +kernel))

def wayResult : Result := resultAll wayStudy (valsOf (fun _ => wayAnswer) wayStudy) ⟨[], [], 0, 0⟩

theorem way_solved : solveLp (fun _ => wayAnswer) ⟨[], [], 0, 0⟩ wayStudy = .ok wayResult := Ready.solve way_ready _ _

def one1 (q : ℚ) : NumVal := ⟨.scalar q, 1, 1⟩

/-- energy goes by `c`, for 2 -/
theorem way_flows : Flows wayStudy 0 (dispatchOf wayStudy wayResult 0) "elec" 0 "a" "b" (val (one1 1) 0 0 + (val (one1 1) 0 0 + 0)) :=
  .along (i := 1) (l := ⟨"c", one1 9, one1 1⟩) (hasNode_inNode (by decide +kernel)) (by decide +kernel) (by decide +kernel)
    (.along (i := 0) (l := ⟨"b", one1 9, one1 1⟩) (hasNode_inNode (by decide +kernel)) (by decide +kernel) (by decide +kernel) (.here "b"))

/-- there is room on the link, for 3 -/
theorem way_spare : Spare wayStudy 0 (dispatchOf wayStudy wayResult 0) "elec" 0 "a" "b" (val (one1 3) 0 0 + 0) :=
  .along (i := 0) (l := ⟨"b", one1 3, one1 3⟩) (hasNode_inNode (by decide +kernel)) (by decide +kernel) (by decide +kernel) (.here "b")

example : val (one1 1) 0 0 + (val (one1 1) 0 0 + 0) ≤ val (one1 3) 0 0 + 0 :=
  C123 way_ready way_noSelf (by decide +kernel) way_solved way_optimal (by decide +kernel) way_flows way_spare

/-- `a` to `b` and back -/
example := C123_opposite (g := "elec") (d := "a") (t := 0) (i := 0) (j := 0) (l := ⟨"b", one1 3, one1 3⟩) (l' := ⟨"a", one1 9, one1 1⟩)
  way_ready way_noSelf (by decide +kernel) way_solved way_optimal (by decide +kernel) (hasNode_inNode (by decide +kernel)) (by decide +kernel)
  (hasNode_inNode (by decide +kernel)) (by decide +kernel) rfl (by decide +kernel)

/-- links both ways that cost nothing -/
def idleLoop : Study := made 1 1 [.studyNetwork "elec", .netNode 0 "a", .netNode 0 "b", .netLink 0 "a" "b" (.num 0) (.num 5),
  .netLink 0 "b" "a" (.num 0) (.num 5)]

def idleLoopAnswer : Var → ℚ
  | .link .. => 4
  | _ => 0

theorem idleLoop_ready : Ready idleLoop where
  built := ⟨1, 1, _, rawCalls_of (by decide +kernel), rfl⟩
  complete := by unfold CompleteConverters; decide +kernel
  ratios := RatiosNonzero.usable (by unfold RatiosNonzero; decide +kernel)
  clean := cleanSources_of (by decide +kernel)

theorem idleLoop_noSelf : NoSelfLink idleLoop := noSelf_of (by decide +kernel)

theorem idleLoop_optimal : Answers (fun _ => idleLoopAnswer) idleLoop 0 Cmd.Optimal :=
  optimal_of_prices (P := ⟨fun _ _ _ => 0, fun _ _ _ _ => 0, fun _ _ _ => 0⟩) idleLoop_ready idleLoop_noSelf (oneStorage_of (by decide +kernel))
    (by decide +kernel) (Cmd.feasible_of_check (by decide +kernel))
    (prices_of (by decide +kernel) (by decide +kernel) (by decide +kernel))

def idleLoopResult : Result := resultAll idleLoop (valsOf (fun _ => idleLoopAnswer) idleLoop) ⟨[], [], 0, 0⟩

theorem idleLoop_flows : Flows idleLoop 0 (dispatchOf idleLoop idleLoopResult 0) "elec" 0 "a" "a"
    (val (one1 0) 0 0 + (val (one1 0) 0 0 + 0)) :=
  .along (i := 0) (l := ⟨"b", one1 5, one1 0⟩) (hasNode_inNode (by decide +kernel)) (by decide +kernel) (by decide +kernel)
    (.along (i := 0) (l := ⟨"a", one1 5, one1 0⟩) (hasNode_inNode (by decide +kernel)) (by decide +kernel) (by decide +kernel) (.here "a"))

/-- a circle that costs nothing may carry energy for no use -/
example := C123_circle idleLoop_ready idleLoop_noSelf (by decide +kernel) (Ready.solve idleLoop_ready _ ⟨[], [], 0, 0⟩) idleLoop_optimal
  (by decide +kernel) idleLoop_flows

/-- C123: when going round costs nothing, an optimal answer may have energy going round for no use -/
theorem C123_idle : ∃ s solver b r, Ready s ∧ NoSelfLink s ∧ Answers solver s 0 Cmd.Optimal ∧ solveLp solver b s = .ok r ∧
    0 < (dispatchOf s r 0).link "elec" "a" 0 0 ∧ 0 < (dispatchOf s r 0).link "elec" "b" 0 0 ∧
    (inNode s "elec" "a").links.map (·.dest) = ["b"] ∧ (inNode s "elec" "b").links.map (·.dest) = ["a"] :=
  ⟨idleLoop, _, ⟨[], [], 0, 0⟩, idleLoopResult, idleLoop_ready, idleLoop_noSelf, idleLoop_optimal, Ready.solve idleLoop_ready _ _,
    by decide +kernel, by decide +kernel, by decide +kernel, by decide +kernel⟩

end Hadar.Props
