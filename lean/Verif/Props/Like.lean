import Verif.Proofs.Like
import Verif.Props.Extension
import Verif.Props.Sensitivity
import Verif.Props.Tax
import Verif.Props.Blend
import Verif.Proofs.Parts

/-!
# C118: the same program with other data
-/

namespace Hadar.Props

open Hadar Spec

variable {P : Pairing} {cs cs' : List Call} {solver solver' : Solver} {b b' : Benchmark} {r r' : Result}

/-- C118: each call of a program returns or raises what it returns or raises when the program is run with other data -/
theorem C118_outcomes (hP : P.Ok) (h : List.Forall₂ (LikeCall P) cs cs') {j : ℕ} {c c' : Call} (hc : cs[j]? = some c)
    (hc' : cs'[j]? = some c') :
    (World.step c ((World.start P.h P.n).run (cs.take j))).1 = (World.step c' ((World.start P.h P.n').run (cs'.take j))).1 := by
  have hw := likes_run hP (List.forall₂_take j h) (likes_start P)
  obtain ⟨d, hd, hcd⟩ := forall₂_get_left h hc
  rw [hc'] at hd
  cases hd
  have := (likes_step hP hcd _ _ hw).1
  generalize (World.step c ((World.start P.h P.n).run (cs.take j))).1 = x at this
  generalize (World.step c' ((World.start P.h P.n').run (cs'.take j))).1 = x' at this
  cases this with
  | error e => rfl
  | ok e => rw [e]

/-- C118: a program run with other data makes a study with the same elements in the same order, with these data -/
theorem C118_compared (hP : P.Ok) (h0 : P.cost 0 0 ∧ P.limit 0 0) (h : List.Forall₂ (LikeCall P) cs cs') :
    Compared P.cost P.limit P.data (made P.h P.n cs) P.i (made P.h P.n' cs') P.k :=
  (likes_run hP h (likes_start P)).study.compared h0

variable {h n i n' k : ℕ}

/-- C118: when the data of scenario `k` are those of scenario `i` of another run of the program, so are the scenarios of
the studies -/
theorem C118_scenario (hP : (Pairing.same h n i n' k).Ok) (hc : List.Forall₂ (LikeCall (.same h n i n' k)) cs cs') :
    SameScenario (made h n cs) i (made h n' cs') k :=
  (likes_run hP hc (likes_start (.same h n i n' k))).study.sameScenario

/-- C118: then the same solver gives the same flows -/
theorem C118_flows (hP : (Pairing.same h n i n' k).Ok) (hc : List.Forall₂ (LikeCall (.same h n i n' k)) cs cs')
    (hs : Ready (made h n cs)) (hs' : Ready (made h n' cs')) (hr : solveLp solver b (made h n cs) = .ok r)
    (hr' : solveLp solver b' (made h n' cs') = .ok r') :
    SameFlows (made h n cs) (dispatchOf (made h n cs) r i) (dispatchOf (made h n' cs') r' k) :=
  C25_independent hs hs' (by rw [made_nbScn]; exact hP.left) (by rw [made_nbScn]; exact hP.right) (C118_scenario hP hc) hr hr'

/-- C118: and any solvers that find the best solutions give the same cost -/
theorem C118_cost (hP : (Pairing.same h n i n' k).Ok) (hc : List.Forall₂ (LikeCall (.same h n i n' k)) cs cs')
    (hs : Ready (made h n cs)) (hs' : Ready (made h n' cs')) (hr : solveLp solver b (made h n cs) = .ok r)
    (hr' : solveLp solver' b' (made h n' cs') = .ok r') (ha : Answers solver (made h n cs) i Cmd.Optimal)
    (ha' : Answers solver' (made h n' cs') k Cmd.Optimal) :
    cost (made h n' cs') k (dispatchOf (made h n' cs') r' k) = cost (made h n cs) i (dispatchOf (made h n cs) r i) := by
  have hk : i < (made h n cs).nbScn := by rw [made_nbScn]; exact hP.left
  have hk' : k < (made h n' cs').nbScn := by rw [made_nbScn]; exact hP.right
  have hcmp : Compared Eq Eq Eq (made h n cs) i (made h n' cs') k := C118_compared hP ⟨rfl, rfl⟩ hc
  have hc1 : Compared (fun _ _ => True) Eq Eq (made h n cs) i (made h n' cs') k :=
    Compared.imp (fun _ _ _ => trivial) (fun _ _ h => h) (fun _ _ h => h) hcmp
  obtain ⟨h1, h2⟩ := C109_costs hs hs' hk hk' hc1 hr hr' ha ha'
  obtain rfl := Ready.result hs hr
  obtain rfl := Ready.result hs' hr'
  have ho := optimal_result (Built.inv hs.built) hk _ b (Ready.answer hs hk ha)
  have ho' := optimal_result (Built.inv hs'.built) hk' _ b' (Ready.answer hs' hk' ha')
  have car : Carried 1 1 (made h n cs) i (made h n' cs') k := Compared.imp (fun x y h => by rw [h]; linarith)
    (fun x y h => by rw [h]; linarith) (fun x y h => by rw [h, one_mul]) hcmp
  have car' : Carried 1 1 (made h n' cs') k (made h n cs) i := Compared.imp (fun x y h => by rw [h]; linarith)
    (fun x y h => by rw [h]; linarith) (fun x y h => by rw [h, one_mul]) (Compared.flip hcmp)
  have e1 := Carried.cost zero_le_one car ho.1
  have e2 := Carried.cost zero_le_one car' ho'.1
  rw [Dispatch.scale_one] at e1 e2
  linarith

/-! ### Giving data -/

/-- C118, with C72: giving larger capacities or lower costs to a program never makes its study cost more -/
theorem C118_easier (hP : (Pairing.easier h n i n' k).Ok) (hc : List.Forall₂ (LikeCall (.easier h n i n' k)) cs cs')
    (hs : Ready (made h n cs)) (hs' : Ready (made h n' cs')) (hp : RatiosNonneg (made h n cs) i)
    (hr : solveLp solver b (made h n cs) = .ok r) (hr' : solveLp solver' b' (made h n' cs') = .ok r')
    (ha : Answers solver (made h n cs) i Cmd.Feasible) (ha' : Answers solver' (made h n' cs') k Cmd.Optimal) :
    cost (made h n' cs') k (dispatchOf (made h n' cs') r' k) ≤ cost (made h n cs) i (dispatchOf (made h n cs) r i) :=
  C72 hs hs' (by rw [made_nbScn]; exact hP.left) (by rw [made_nbScn]; exact hP.right)
    (C118_compared hP ⟨le_refl (0 : ℚ), le_refl (0 : ℚ)⟩ hc) hp hr hr' ha ha'

/-- C118, with C73: multiplying all costs given to a program by `x` and all quantities by `y` multiplies the least cost by `x y` -/
theorem C118_units {x y : ℚ} (hx : 0 < x) (hy : 0 < y) (hP : (Pairing.rescaled x y h n i n' k).Ok)
    (hc : List.Forall₂ (LikeCall (.rescaled x y h n i n' k)) cs cs')
    (hs : Ready (made h n cs)) (hs' : Ready (made h n' cs')) (hp : RatiosNonneg (made h n cs) i)
    (hr : solveLp solver b (made h n cs) = .ok r) (hr' : solveLp solver' b' (made h n' cs') = .ok r')
    (ha : Answers solver (made h n cs) i Cmd.Optimal) (ha' : Answers solver' (made h n' cs') k Cmd.Optimal) :
    cost (made h n' cs') k (dispatchOf (made h n' cs') r' k) = x * y * cost (made h n cs) i (dispatchOf (made h n cs) r i) :=
  C73 hx hy hs hs' (by rw [made_nbScn]; exact hP.left) (by rw [made_nbScn]; exact hP.right)
    (C118_compared hP ⟨(mul_zero x).symm, (mul_zero y).symm⟩ hc) hp hr hr' ha ha'

/-- numbers -/
theorem like_number {R : ℚ → ℚ → Prop} {q q' : ℚ} (h : R q q') : LikeData P R (.num q) (.num q') :=
  ⟨⟨fun _ h => (nomatch h), fun _ h => (nomatch h)⟩, ⟨.number q, .number q'⟩, fun t _ => ⟨q, q', .number _ _ _, .number _ _ _, h⟩⟩

/-- one number per scenario -/
theorem like_column {R : ℚ → ℚ → Prop} {a a' : NdArray} (hs : a.shape = [P.n, 1]) (hs' : a'.shape = [P.n', 1]) {q q' : ℚ}
    (hq : a.data[P.i]? = some q) (hq' : a'.data[P.k]? = some q') (h : R q q') : LikeData P R (.array a) (.array a') :=
  ⟨⟨fun _ h => (nomatch h), fun _ h => (nomatch h)⟩, ⟨.array a (.inr (.inl hs)), .array a' (.inr (.inl hs'))⟩,
    fun t _ => ⟨q, q', .perScenario _ _ _ _ hs hq, .perScenario _ _ _ _ hs' hq', h⟩⟩

/-- one number per scenario and time -/
theorem like_matrix {R : ℚ → ℚ → Prop} {a a' : NdArray} (hs : a.shape = [P.n, P.h]) (hs' : a'.shape = [P.n', P.h])
    (h : ∀ t < P.h, ∃ q q', a.data[P.i * P.h + t]? = some q ∧ a'.data[P.k * P.h + t]? = some q' ∧ R q q') :
    LikeData P R (.array a) (.array a') :=
  ⟨⟨fun _ h => (nomatch h), fun _ h => (nomatch h)⟩, ⟨.array a (.inr (.inr hs)), .array a' (.inr (.inr hs'))⟩, fun t ht => by
    obtain ⟨q, q', h1, h2, h3⟩ := h t ht
    exact ⟨q, q', .full _ _ _ _ hs h1, .full _ _ _ _ hs' h2, h3⟩⟩

/-- limits that are not negative in the scenarios that are compared -/
theorem like_limit (hP : P.Ok) {R : ℚ → ℚ → Prop} {r r' : Raw} (h : LikeData P R r r')
    (h0 : ∀ q, Means P.h P.n r P.i 0 q → 0 ≤ q) (h0' : ∀ q, Means P.h P.n' r' P.k 0 q → 0 ≤ q) : LikeLimit P R r r' := by
  refine ⟨h, ⟨fun hn => ?_, fun hn => ?_⟩⟩
  · obtain ⟨q, h1, h2⟩ := hn P.i 0 hP.left hP.horizon
    exact absurd (h0 q h1) (not_le.mpr h2)
  · obtain ⟨q, h1, h2⟩ := hn P.k 0 hP.right hP.horizon
    exact absurd (h0' q h1) (not_le.mpr h2)

theorem limit_number (hP : P.Ok) {R : ℚ → ℚ → Prop} {q q' : ℚ} (h : R q q') (h0 : 0 ≤ q) (h0' : 0 ≤ q') :
    LikeLimit P R (.num q) (.num q') :=
  like_limit hP (like_number h) (fun _ h => by cases h; exact h0) (fun _ h => by cases h; exact h0')

theorem limit_column (hP : P.Ok) {R : ℚ → ℚ → Prop} {a a' : NdArray} (hs : a.shape = [P.n, 1]) (hs' : a'.shape = [P.n', 1]) {q q' : ℚ}
    (hq : a.data[P.i]? = some q) (hq' : a'.data[P.k]? = some q') (h : R q q') (h0 : 0 ≤ q) (h0' : 0 ≤ q') :
    LikeLimit P R (.array a) (.array a') :=
  like_limit hP (like_column hs hs' hq hq' h)
    (fun x hx => by rw [C01_broadcast_unique _ _ _ _ _ hP.horizon _ _ hx (.perScenario _ _ _ _ hs hq)]; exact h0)
    (fun x hx => by rw [C01_broadcast_unique _ _ _ _ _ hP.horizon _ _ hx (.perScenario _ _ _ _ hs' hq')]; exact h0')

/-! ### Concrete cases -/

/-- the program of `windCalls` with the second scenario twice, then the first -/
def windAgain : List Call :=
  [.studyNetwork "elec", .netNode 0 "a", .nodeConsumption 0 "load" (.num 100) (.array ⟨[3, 1], [20, 20, 10], rfl⟩),
   .nodeProduction 0 "wind" (.num 0) (.array ⟨[3, 1], [4, 4, 14], rfl⟩), .nodeProduction 0 "fuel" (.num 70) (.num 5),
   .nodeStorage 0 ⟨"cell", .num 8, .num 2, .num 2, .num 0, 5, .num (9/10)⟩,
   .netNode 0 "b", .netLink 0 "a" "b" (.num 1) (.num 4),
   .studyNetwork "gas", .netNode 1 "g", .nodeProduction 1 "well" (.num 1) (.num 10),
   .nodeToConverter 1 "conv" (.num (1/2)),
   .nodeConverter 1 "conv" "elec" "b" (.num 3) (.num 2)]

theorem windAgain_ready : Ready (made 1 3 windAgain) where
  built := ⟨1, 3, windAgain, rawCalls_of (by decide +kernel), rfl⟩
  complete := by unfold CompleteConverters; decide +kernel
  ratios := RatiosNonzero.usable (by unfold RatiosNonzero; decide +kernel)
  clean := cleanSources_of (by decide +kernel)

/-- scenarios 0, 1, 2 are scenarios 1, 1, 0 -/
theorem windAgain_like : ∀ k < 3, List.Forall₂ (LikeCall (.same 1 2 (if k = 2 then 0 else 1) 3 k)) windCalls windAgain := by
  intro k hk
  have hP : (Pairing.same 1 2 (if k = 2 then 0 else 1) 3 k).Ok := ⟨Nat.one_pos, by unfold Pairing.same; simp only; split_ifs <;> decide, hk⟩
  have load : LikeLimit (.same 1 2 (if k = 2 then 0 else 1) 3 k) Eq (.array ⟨[2, 1], [10, 20], rfl⟩) (.array ⟨[3, 1], [20, 20, 10], rfl⟩) := by
    have : k = 0 ∨ k = 1 ∨ k = 2 := by omega
    rcases this with rfl | rfl | rfl
    · exact limit_column hP rfl rfl (q := 20) rfl rfl rfl (by norm_num) (by norm_num)
    · exact limit_column hP rfl rfl (q := 20) rfl rfl rfl (by norm_num) (by norm_num)
    · exact limit_column hP rfl rfl (q := 10) rfl rfl rfl (by norm_num) (by norm_num)
  have wind : LikeLimit (.same 1 2 (if k = 2 then 0 else 1) 3 k) Eq (.array ⟨[2, 1], [14, 4], rfl⟩) (.array ⟨[3, 1], [4, 4, 14], rfl⟩) := by
    have : k = 0 ∨ k = 1 ∨ k = 2 := by omega
    rcases this with rfl | rfl | rfl
    · exact limit_column hP rfl rfl (q := 4) rfl rfl rfl (by norm_num) (by norm_num)
    · exact limit_column hP rfl rfl (q := 4) rfl rfl rfl (by norm_num) (by norm_num)
    · exact limit_column hP rfl rfl (q := 14) rfl rfl rfl (by norm_num) (by norm_num)
  have lim : ∀ q : ℚ, 0 ≤ q → LikeLimit (.same 1 2 (if k = 2 then 0 else 1) 3 k) Eq (.num q) (.num q) :=
    fun q h0 => limit_number hP rfl h0 h0
  refine .cons (.studyNetwork _) <| .cons (.netNode _ _) <| .cons (.nodeConsumption _ _ (like_number rfl) load) <|
    .cons (.nodeProduction _ _ (like_number rfl) wind) <| .cons (.nodeProduction _ _ (like_number rfl) (lim 5 (by norm_num))) <|
    .cons (.nodeStorage _ ⟨rfl, lim 8 (by norm_num), lim 2 (by norm_num), lim 2 (by norm_num), like_number rfl,
      ⟨rfl, Iff.rfl⟩, lim (9/10) (by norm_num), ?_⟩) <|
    .cons (.netNode _ _) <| .cons (.netLink _ _ _ (like_number rfl) (lim 4 (by norm_num))) <| .cons (.studyNetwork _) <|
    .cons (.netNode _ _) <| .cons (.nodeProduction _ _ (like_number rfl) (lim 10 (by norm_num))) <|
    .cons (.nodeToConverter _ _ (like_number rfl)) <| .cons (.nodeConverter _ _ _ _ (like_number rfl) (like_number rfl)) .nil
  have no : ∀ n, 0 < n → ¬ Everywhere 1 n (.num (9/10)) (1 < ·) := by
    intro n hn he
    obtain ⟨q, h1, h2⟩ := he 0 0 hn (by decide)
    cases h1
    norm_num at h2
  exact ⟨fun h => absurd h (no 2 (by decide)), fun h => absurd h (no 3 (by decide))⟩

/-- whatever the solvers, the three scenarios cost what the scenarios they come from cost -/
example (S S' : Solver) (b : Benchmark) (r r' : Result) (hr : solveLp S b windStudy = .ok r)
    (hr' : solveLp S' b (made 1 3 windAgain) = .ok r') (ha : Answers S windStudy 1 Cmd.Optimal)
    (ha' : Answers S' (made 1 3 windAgain) 0 Cmd.Optimal) :
    cost (made 1 3 windAgain) 0 (dispatchOf (made 1 3 windAgain) r' 0) = cost windStudy 1 (dispatchOf windStudy r 1) :=
  C118_cost (cs := windCalls) ⟨by decide, by decide, by decide⟩ (windAgain_like 0 (by decide)) windStudy_ready windAgain_ready hr hr' ha ha'

/-- with the same solver, so are all flows -/
example (S : Solver) (b : Benchmark) (r r' : Result) (hr : solveLp S b windStudy = .ok r)
    (hr' : solveLp S b (made 1 3 windAgain) = .ok r') :
    SameFlows windStudy (dispatchOf windStudy r 0) (dispatchOf (made 1 3 windAgain) r' 2) :=
  C118_flows (cs := windCalls) ⟨by decide, by decide, by decide⟩ (windAgain_like 2 (by decide)) windStudy_ready windAgain_ready hr hr'

/-- the hypotheses of `C118_compared`: in a scenario of less load and more wind, the load asked is less and the limits are higher -/
example : Compared Eq (fun x y => x ≤ y) (fun x y => y ≤ x) (made 1 2 windCalls) 1 (made 1 3 windAgain) 2 := by
  have hP : (Pairing.mk 1 2 1 3 2 Eq (fun x y => x ≤ y) (fun x y => y ≤ x)).Ok := ⟨by decide, by decide, by decide⟩
  have lim : ∀ q : ℚ, 0 ≤ q → LikeLimit (Pairing.mk 1 2 1 3 2 Eq (fun x y => x ≤ y) (fun x y => y ≤ x)) (fun x y => x ≤ y) (.num q) (.num q) :=
    fun q h0 => limit_number hP (le_refl _) h0 h0
  have no : ∀ n, 0 < n → ¬ Everywhere 1 n (.num (9/10)) (1 < ·) := by
    intro n hn he
    obtain ⟨q, h1, h2⟩ := he 0 0 hn (by decide)
    cases h1
    norm_num at h2
  have load : LikeLimit (Pairing.mk 1 2 1 3 2 Eq (fun x y => x ≤ y) (fun x y => y ≤ x)) (fun x y => y ≤ x) (.array ⟨[2, 1], [10, 20], rfl⟩)
      (.array ⟨[3, 1], [20, 20, 10], rfl⟩) :=
    limit_column hP rfl rfl (q := 20) (q' := 10) rfl rfl (by norm_num) (by norm_num) (by norm_num)
  have wind : LikeLimit (Pairing.mk 1 2 1 3 2 Eq (fun x y => x ≤ y) (fun x y => y ≤ x)) (fun x y => x ≤ y) (.array ⟨[2, 1], [14, 4], rfl⟩)
      (.array ⟨[3, 1], [4, 4, 14], rfl⟩) :=
    limit_column hP rfl rfl (q := 4) (q' := 14) rfl rfl (by norm_num) (by norm_num) (by norm_num)
  refine C118_compared (P := Pairing.mk 1 2 1 3 2 Eq (fun x y => x ≤ y) (fun x y => y ≤ x)) (cs := windCalls) (cs' := windAgain) hP
    ⟨rfl, le_refl (0 : ℚ)⟩ ?_
  exact .cons (.studyNetwork _) <| .cons (.netNode _ _) <|
    .cons (.nodeConsumption _ _ (like_number rfl) load) <|
    .cons (.nodeProduction _ _ (like_number rfl) wind) <|
    .cons (.nodeProduction _ _ (like_number rfl) (lim 5 (by norm_num))) <|
    .cons (.nodeStorage _ ⟨rfl, lim 8 (by norm_num), lim 2 (by norm_num), lim 2 (by norm_num), like_number rfl,
      ⟨le_refl _, Iff.rfl⟩, limit_number hP rfl (by norm_num) (by norm_num),
      fun h => absurd h (no 2 (by decide)), fun h => absurd h (no 3 (by decide))⟩) <|
    .cons (.netNode _ _) <| .cons (.netLink _ _ _ (like_number rfl) (lim 4 (by norm_num))) <| .cons (.studyNetwork _) <|
    .cons (.netNode _ _) <| .cons (.nodeProduction _ _ (like_number rfl) (lim 10 (by norm_num))) <|
    .cons (.nodeToConverter _ _ (like_number rfl)) <| .cons (.nodeConverter _ _ _ _ (like_number (le_refl _)) (like_number rfl)) .nil

/-- the hypotheses of `C118_outcomes`: the call that makes the link -/
example := C118_outcomes ⟨by decide, by decide, by decide⟩ (windAgain_like 2 (by decide)) (j := 7) rfl rfl

/-- a load and a plant -/
def plantCalls (load plant price : ℚ) : List Call :=
  [.studyNetwork "elec", .netNode 0 "a", .nodeConsumption 0 "load" (.num 100) (.num load), .nodeProduction 0 "plant" (.num price) (.num plant)]

theorem plantCalls_ready (n : ℕ) (load plant price : ℚ)
    (hc : (made 2 n (plantCalls load plant price)).converters = []) : Ready (made 2 n (plantCalls load plant price)) := by
  refine ⟨⟨2, n, _, rawCalls_of rfl, rfl⟩, ?_, RatiosNonzero.usable ?_, cleanSources_of ?_⟩
  all_goals
    intro p hp
    rw [hc] at hp
    cases hp

/-- the hypotheses of `C118_easier`: a larger and cheaper plant -/
example : List.Forall₂ (LikeCall (.easier 2 1 0 3 1)) (plantCalls 10 4 5) (plantCalls 10 6 3) ∧ (Pairing.easier 2 1 0 3 1).Ok ∧
    Ready (made 2 1 (plantCalls 10 4 5)) ∧ Ready (made 2 3 (plantCalls 10 6 3)) ∧ RatiosNonneg (made 2 1 (plantCalls 10 4 5)) 0 := by
  have hP : (Pairing.easier 2 1 0 3 1).Ok := ⟨by decide, by decide, by decide⟩
  refine ⟨.cons (.studyNetwork _) <| .cons (.netNode _ _) <| .cons (.nodeConsumption _ _ (like_number (le_refl (100 : ℚ)))
    (limit_number hP rfl (by norm_num) (by norm_num))) <| .cons (.nodeProduction _ _ (like_number (by show (3 : ℚ) ≤ 5; norm_num))
    (limit_number hP (by show (4 : ℚ) ≤ 6; norm_num) (by norm_num) (by norm_num))) .nil, hP,
    plantCalls_ready _ _ _ _ (by decide +kernel),
    plantCalls_ready _ _ _ _ (by decide +kernel), by unfold RatiosNonneg; decide +kernel⟩

/-- the hypotheses of `C118_units`: kilowatts, and cents -/
example : List.Forall₂ (LikeCall (.rescaled 100 1000 2 1 0 1 0)) (plantCalls 10 4 5)
    [.studyNetwork "elec", .netNode 0 "a", .nodeConsumption 0 "load" (.num 10000) (.num 10000), .nodeProduction 0 "plant" (.num 500) (.num 4000)] := by
  have hP : (Pairing.rescaled 100 1000 2 1 0 1 0).Ok := ⟨by decide, by decide, by decide⟩
  exact .cons (.studyNetwork _) <| .cons (.netNode _ _) <| .cons (.nodeConsumption _ _ (like_number (by show (10000 : ℚ) = 100 * 100; norm_num))
    (limit_number hP (by show (10000 : ℚ) = 1000 * 10; norm_num) (by norm_num) (by norm_num))) <|
    .cons (.nodeProduction _ _ (like_number (by show (500 : ℚ) = 100 * 5; norm_num))
    (limit_number hP (by show (4000 : ℚ) = 1000 * 4; norm_num) (by norm_num) (by norm_num))) .nil

end Hadar.Props
