import Verif.Proofs.Mean
import Verif.Props.Sensitivity

/-!
# C85, C86: the least cost of a mixture of two studies, and of the mean scenario
-/

namespace Hadar.Props

open Hadar Spec

variable {s₁ s₂ s : Study} {S₁ S₂ S : Solver} {b₁ b₂ b : Benchmark} {r₁ r₂ r : Result} {k₁ k₂ k : ℕ} {x y : ℚ}

/-- C85: a study whose loads and limits are a mixture of those of two others (or of two scenarios) costs at most the mixture of the costs -/
theorem C85 (hx : 0 ≤ x) (hy : 0 ≤ y) (hs₁ : Ready s₁) (hs₂ : Ready s₂) (hs : Ready s) (hk₁ : k₁ < s₁.nbScn) (hk₂ : k₂ < s₂.nbScn)
    (hk : k < s.nbScn) (hm : Blended x y s₁ k₁ s₂ k₂ s k) (hp : RatiosNonneg s k)
    (hr₁ : solveLp S₁ b₁ s₁ = .ok r₁) (hr₂ : solveLp S₂ b₂ s₂ = .ok r₂) (hr : solveLp S b s = .ok r)
    (ha₁ : Answers S₁ s₁ k₁ Cmd.Feasible) (ha₂ : Answers S₂ s₂ k₂ Cmd.Feasible) (ha : Answers S s k Cmd.Optimal) :
    cost s k (dispatchOf s r k) ≤ x * cost s₁ k₁ (dispatchOf s₁ r₁ k₁) + y * cost s₂ k₂ (dispatchOf s₂ r₂ k₂) := by
  obtain rfl := Ready.result hs₁ hr₁
  obtain rfl := Ready.result hs₂ hr₂
  obtain rfl := Ready.result hs hr
  have hf₁ := (codeFeasible_iff (Built.inv hs₁.built) hk₁ _ b₁).mp (Ready.answer hs₁ hk₁ ha₁)
  have hf₂ := (codeFeasible_iff (Built.inv hs₂.built) hk₂ _ b₂).mp (Ready.answer hs₂ hk₂ ha₂)
  have ho := optimal_result (Built.inv hs.built) hk _ b (Ready.answer hs hk ha)
  have h1 := ho.2 _ (hm.codeFeasible hx hy hp hf₁ hf₂)
  rwa [blend_cost hm.first hm.second] at h1

/-- C85: a study whose costs are a mixture of those of two others costs at least the mixture of the costs -/
theorem C85_costs (hx : 0 ≤ x) (hy : 0 ≤ y) (hs₁ : Ready s₁) (hs₂ : Ready s₂) (hs : Ready s) (hk₁ : k₁ < s₁.nbScn)
    (hk₂ : k₂ < s₂.nbScn) (hk : k < s.nbScn) (hm : CostsBlended x y s₁ k₁ s₂ k₂ s k) (hp : RatiosNonneg s k)
    (hr₁ : solveLp S₁ b₁ s₁ = .ok r₁) (hr₂ : solveLp S₂ b₂ s₂ = .ok r₂) (hr : solveLp S b s = .ok r)
    (ha₁ : Answers S₁ s₁ k₁ Cmd.Optimal) (ha₂ : Answers S₂ s₂ k₂ Cmd.Optimal) (ha : Answers S s k Cmd.Feasible) :
    x * cost s₁ k₁ (dispatchOf s₁ r₁ k₁) + y * cost s₂ k₂ (dispatchOf s₂ r₂ k₂) ≤ cost s k (dispatchOf s r k) := by
  obtain rfl := Ready.result hs₁ hr₁
  obtain rfl := Ready.result hs₂ hr₂
  obtain rfl := Ready.result hs hr
  have hf := (codeFeasible_iff (Built.inv hs.built) hk _ b).mp (Ready.answer hs hk ha)
  have ho₁ := optimal_result (Built.inv hs₁.built) hk₁ _ b₁ (Ready.answer hs₁ hk₁ ha₁)
  have ho₂ := optimal_result (Built.inv hs₂.built) hk₂ _ b₂ (Ready.answer hs₂ hk₂ ha₂)
  have h1 := ho₁.2 _ (sameQuantities_feasible hm.first hp hf)
  have h2 := ho₂.2 _ (sameQuantities_feasible hm.second hp hf)
  rw [hm.cost]
  exact add_le_add (mul_le_mul_of_nonneg_left h1 hx) (mul_le_mul_of_nonneg_left h2 hy)

/-- C85: mixtures of feasible dispatches are feasible for the mixture -/
theorem C85_feasible (hx : 0 ≤ x) (hy : 0 ≤ y) (hm : Blended x y s₁ k₁ s₂ k₂ s k) (hp : RatiosNonneg s k)
    (hself : NoSelfLink s) (h1 : OneStorage s) {D₁ D₂ : Dispatch} (hD₁ : Spec.Feasible s₁ k₁ D₁)
    (hD₂ : Spec.Feasible s₂ k₂ D₂) : Spec.Feasible s k (D₁.blend x y D₂) :=
  feasible_of_code hself h1 (hm.codeFeasible hx hy hp
    (code_of_feasible (NoSelfLink.compared (Compared.flip hm.first) hself) hD₁)
    (code_of_feasible (NoSelfLink.compared (Compared.flip hm.second) hself) hD₂))

/-! ### The mean scenario -/

/-- C86: the mean scenario costs at most the mean of the costs of the scenarios -/
theorem C86 {s s' : Study} {S S' : Solver} {b b' : Benchmark} {r r' : Result} {k' : ℕ} {w : ℕ → ℚ} (hw : Weights s.nbScn w)
    (hs : Ready s) (hs' : Ready s') (hk' : k' < s'.nbScn) (hm : MeanScenario w s s' k') (hp : RatiosNonneg s' k')
    (hr : solveLp S b s = .ok r) (hr' : solveLp S' b' s' = .ok r')
    (ha : ∀ k < s.nbScn, Answers S s k Cmd.Feasible) (ha' : Answers S' s' k' Cmd.Optimal) :
    cost s' k' (dispatchOf s' r' k') ≤ weighted s.nbScn w fun k => cost s k (dispatchOf s r k) := by
  obtain rfl := Ready.result hs hr
  obtain rfl := Ready.result hs' hr'
  have hf := fun k hk => (codeFeasible_iff (Built.inv hs.built) hk _ b).mp (Ready.answer hs hk (ha k hk))
  have ho := optimal_result (Built.inv hs'.built) hk' _ b' (Ready.answer hs' hk' ha')
  have h1 := ho.2 _ (hm.codeFeasible hw hp hf)
  rwa [mean_cost hm] at h1

/-- C86: the mean of feasible dispatches of all scenarios is feasible for the mean scenario -/
theorem C86_feasible {s s' : Study} {k' : ℕ} {w : ℕ → ℚ} (hw : Weights s.nbScn w) (hm : MeanScenario w s s' k')
    (hp : RatiosNonneg s' k') (hself : NoSelfLink s) (hself' : NoSelfLink s') (h1 : OneStorage s') {D : ℕ → Dispatch}
    (hD : ∀ k < s.nbScn, Spec.Feasible s k (D k)) : Spec.Feasible s' k' (Dispatch.mean s.nbScn w D) :=
  feasible_of_code hself' h1 (hm.codeFeasible hw hp fun k hk => code_of_feasible hself (hD k hk))

/-! ### Concrete cases -/

/-- one study with two scenarios of load and of wind -/
def windCalls : List Call :=
  [.studyNetwork "elec", .netNode 0 "a", .nodeConsumption 0 "load" (.num 100) (.array ⟨[2, 1], [10, 20], rfl⟩),
   .nodeProduction 0 "wind" (.num 0) (.array ⟨[2, 1], [14, 4], rfl⟩), .nodeProduction 0 "fuel" (.num 70) (.num 5),
   .nodeStorage 0 ⟨"cell", .num 8, .num 2, .num 2, .num 0, 5, .num (9/10)⟩,
   .netNode 0 "b", .netLink 0 "a" "b" (.num 1) (.num 4),
   .studyNetwork "gas", .netNode 1 "g", .nodeProduction 1 "well" (.num 1) (.num 10),
   .nodeToConverter 1 "conv" (.num (1/2)),
   .nodeConverter 1 "conv" "elec" "b" (.num 3) (.num 2)]

/-- the mean of its scenarios -/
def meanCalls : List Call :=
  [.studyNetwork "elec", .netNode 0 "a", .nodeConsumption 0 "load" (.num 100) (.num 15),
   .nodeProduction 0 "wind" (.num 0) (.num 9), .nodeProduction 0 "fuel" (.num 70) (.num 5),
   .nodeStorage 0 ⟨"cell", .num 8, .num 2, .num 2, .num 0, 5, .num (9/10)⟩,
   .netNode 0 "b", .netLink 0 "a" "b" (.num 1) (.num 4),
   .studyNetwork "gas", .netNode 1 "g", .nodeProduction 1 "well" (.num 1) (.num 10),
   .nodeToConverter 1 "conv" (.num (1/2)),
   .nodeConverter 1 "conv" "elec" "b" (.num 3) (.num 2)]

def windStudy : Study := ((World.start 1 2).run windCalls).study

def meanStudy : Study := ((World.start 1 1).run meanCalls).study

theorem windStudy_ready : Ready windStudy where
  built := ⟨1, 2, windCalls, by
    intro c hc
    simp only [windCalls, List.mem_cons, List.not_mem_nil, or_false] at hc
    rcases hc with rfl | rfl | rfl | rfl | rfl | rfl | rfl | rfl | rfl | rfl | rfl | rfl | rfl <;> simp [RawCall], rfl⟩
  complete := by unfold CompleteConverters; decide +kernel
  ratios := RatiosNonzero.usable (by unfold RatiosNonzero; decide +kernel)
  clean := cleanSources_of (by decide +kernel)

theorem meanStudy_ready : Ready meanStudy where
  built := ⟨1, 1, meanCalls, by
    intro c hc
    simp only [meanCalls, List.mem_cons, List.not_mem_nil, or_false] at hc
    rcases hc with rfl | rfl | rfl | rfl | rfl | rfl | rfl | rfl | rfl | rfl | rfl | rfl | rfl <;> simp [RawCall], rfl⟩
  complete := by unfold CompleteConverters; decide +kernel
  ratios := RatiosNonzero.usable (by unfold RatiosNonzero; decide +kernel)
  clean := cleanSources_of (by decide +kernel)

theorem half_weights : Weights windStudy.nbScn (fun _ => 1/2) := ⟨by decide +kernel, by decide +kernel⟩

theorem wind_mean : MeanScenario (fun _ => 1/2) windStudy meanStudy 0 :=
  ⟨by decide +kernel, by decide +kernel, by decide +kernel⟩

/-- the study of the mean wind costs at most the mean of the costs with each wind -/
example (S S' : Solver) (b : Benchmark) (r r' : Result) (hr : solveLp S b windStudy = .ok r)
    (hr' : solveLp S' b meanStudy = .ok r') (ha : ∀ k < windStudy.nbScn, Answers S windStudy k Cmd.Feasible)
    (ha' : Answers S' meanStudy 0 Cmd.Optimal) :
    cost meanStudy 0 (dispatchOf meanStudy r' 0) ≤
      weighted windStudy.nbScn (fun _ => 1/2) fun k => cost windStudy k (dispatchOf windStudy r k) :=
  C86 half_weights windStudy_ready meanStudy_ready (by decide +kernel) wind_mean (by unfold RatiosNonneg; decide +kernel) hr hr'
    ha ha'

/-- the nodes of a study -/
def nodeList (s : Study) : List ((String × String) × InputNode) := s.networks.flatMap fun p => p.2.nodes.map fun q => ((p.1, q.1), q.2)

theorem mem_nodeList {g d : String} {n : InputNode} (h : HasNode s g d n) : ((g, d), n) ∈ nodeList s := by
  obtain ⟨net, hg, hd⟩ := h
  exact List.mem_flatMap.mpr ⟨_, hg, List.mem_map.mpr ⟨_, hd, rfl⟩⟩

theorem nodes_check {P : InputNode → InputNode → InputNode → Prop}
    (h : ∀ a ∈ nodeList s₁, ∀ b ∈ nodeList s₂, ∀ c ∈ nodeList s, a.1 = c.1 → b.1 = c.1 → P a.2 b.2 c.2) :
    ∀ g d n₁ n₂ n, HasNode s₁ g d n₁ → HasNode s₂ g d n₂ → HasNode s g d n → P n₁ n₂ n :=
  fun _ _ _ _ _ h₁ h₂ hn => h _ (mem_nodeList h₁) _ (mem_nodeList h₂) _ (mem_nodeList hn) rfl rfl

theorem items_check {α : Type} {l₁ l₂ l : List α} {P : α → α → α → Prop}
    (h : ∀ z ∈ l₁.zip (l₂.zip l), P z.1 z.2.1 z.2.2) :
    ∀ (i : ℕ) c₁ c₂ c, l₁[i]? = some c₁ → l₂[i]? = some c₂ → l[i]? = some c → P c₁ c₂ c := by
  intro i c₁ c₂ c h₁ h₂ hc
  exact h (c₁, c₂, c) (List.mem_of_getElem? (i := i) (List.getElem?_zip_eq_some.mpr ⟨h₁, List.getElem?_zip_eq_some.mpr ⟨h₂, hc⟩⟩))

instance (x y a b z : ℚ) : Decidable (Mix x y a b z) := by unfold Mix; infer_instance

instance (x y a b z : ℚ) : Decidable (MixLe x y a b z) := by unfold MixLe; infer_instance

set_option synthInstance.maxSize 1024 in
/-- the mean is a mixture of both scenarios -/
theorem wind_blend : Blended (1/2) (1/2) windStudy 0 windStudy 1 meanStudy 0 where
  first := by unfold SameShape; decide +kernel
  second := by unfold SameShape; decide +kernel
  consumptions := fun g d n₁ n₂ n h₁ h₂ h => items_check (nodes_check (P := fun n₁ n₂ n =>
    ∀ z ∈ n₁.consumptions.zip (n₂.consumptions.zip n.consumptions), ∀ t < meanStudy.horizon,
    Mix (1/2) (1/2) (val z.1.quantity 0 t) (val z.2.1.quantity 1 t) (val z.2.2.quantity 0 t)) (by decide +kernel) g d n₁ n₂ n h₁ h₂ h)
  productions := fun g d n₁ n₂ n h₁ h₂ h => items_check (nodes_check (P := fun n₁ n₂ n =>
    ∀ z ∈ n₁.productions.zip (n₂.productions.zip n.productions), ∀ t < meanStudy.horizon,
    MixLe (1/2) (1/2) (val z.1.quantity 0 t) (val z.2.1.quantity 1 t) (val z.2.2.quantity 0 t)) (by decide +kernel) g d n₁ n₂ n h₁ h₂ h)
  storages := fun g d n₁ n₂ n h₁ h₂ h => items_check (nodes_check (P := fun n₁ n₂ n =>
    ∀ z ∈ n₁.storages.zip (n₂.storages.zip n.storages),
    Mix (1/2) (1/2) z.1.initCapacity z.2.1.initCapacity z.2.2.initCapacity ∧ ∀ t < meanStudy.horizon,
    MixLe (1/2) (1/2) (val z.1.capacity 0 t) (val z.2.1.capacity 1 t) (val z.2.2.capacity 0 t) ∧
    MixLe (1/2) (1/2) (val z.1.flowIn 0 t) (val z.2.1.flowIn 1 t) (val z.2.2.flowIn 0 t) ∧
    MixLe (1/2) (1/2) (val z.1.flowOut 0 t) (val z.2.1.flowOut 1 t) (val z.2.2.flowOut 0 t)) (by decide +kernel) g d n₁ n₂ n h₁ h₂ h)
  links := fun g d n₁ n₂ n h₁ h₂ h => items_check (nodes_check (P := fun n₁ n₂ n =>
    ∀ z ∈ n₁.links.zip (n₂.links.zip n.links), ∀ t < meanStudy.horizon,
    MixLe (1/2) (1/2) (val z.1.quantity 0 t) (val z.2.1.quantity 1 t) (val z.2.2.quantity 0 t)) (by decide +kernel) g d n₁ n₂ n h₁ h₂ h)
  converters := by decide +kernel

/-- one study with two scenarios of the price of fuel -/
def fuelCalls (fuel : Raw) : List Call :=
  [.studyNetwork "elec", .netNode 0 "a", .nodeConsumption 0 "load" (.num 100) (.num 10),
   .nodeProduction 0 "wind" (.num 0) (.num 4), .nodeProduction 0 "fuel" fuel (.num 5)]

def fuelStudy : Study := ((World.start 1 2).run (fuelCalls (.array ⟨[2, 1], [30, 150], rfl⟩))).study

def meanFuelStudy : Study := ((World.start 1 1).run (fuelCalls (.num 90))).study

theorem fuel_blend : CostsBlended (1/2) (1/2) fuelStudy 0 fuelStudy 1 meanFuelStudy 0 where
  first := by unfold SameQuantities; decide +kernel
  second := by unfold SameQuantities; decide +kernel
  consumptions := fun g d n₁ n₂ n h₁ h₂ h => items_check (nodes_check (P := fun n₁ n₂ n =>
    ∀ z ∈ n₁.consumptions.zip (n₂.consumptions.zip n.consumptions), ∀ t < meanFuelStudy.horizon,
    Mix (1/2) (1/2) (val z.1.cost 0 t) (val z.2.1.cost 1 t) (val z.2.2.cost 0 t)) (by decide +kernel) g d n₁ n₂ n h₁ h₂ h)
  productions := fun g d n₁ n₂ n h₁ h₂ h => items_check (nodes_check (P := fun n₁ n₂ n =>
    ∀ z ∈ n₁.productions.zip (n₂.productions.zip n.productions), ∀ t < meanFuelStudy.horizon,
    Mix (1/2) (1/2) (val z.1.cost 0 t) (val z.2.1.cost 1 t) (val z.2.2.cost 0 t)) (by decide +kernel) g d n₁ n₂ n h₁ h₂ h)
  storages := fun g d n₁ n₂ n h₁ h₂ h => items_check (nodes_check (P := fun n₁ n₂ n =>
    ∀ z ∈ n₁.storages.zip (n₂.storages.zip n.storages), ∀ t < meanFuelStudy.horizon,
    Mix (1/2) (1/2) (val z.1.cost 0 t) (val z.2.1.cost 1 t) (val z.2.2.cost 0 t)) (by decide +kernel) g d n₁ n₂ n h₁ h₂ h)
  links := fun g d n₁ n₂ n h₁ h₂ h => items_check (nodes_check (P := fun n₁ n₂ n =>
    ∀ z ∈ n₁.links.zip (n₂.links.zip n.links), ∀ t < meanFuelStudy.horizon,
    Mix (1/2) (1/2) (val z.1.cost 0 t) (val z.2.1.cost 1 t) (val z.2.2.cost 0 t)) (by decide +kernel) g d n₁ n₂ n h₁ h₂ h)
  converters := by decide +kernel

/-! ### The theorems applied to concrete cases -/

/-- wind covers the load of the first scenario -/
def windyAnswer : Var → ℚ
  | .prod _ "elec" _ 0 => 10
  | .cap .. => 5
  | _ => 0

/-- in the second one, 9 are not served -/
def stillAnswer : Var → ℚ
  | .prod _ "elec" _ 0 => 4
  | .prod _ "elec" _ 1 => 5
  | .fout .. => 2
  | .cap .. => 3
  | .lol .. => 9
  | _ => 0

def meanAnswer : Var → ℚ
  | .prod _ "elec" _ 0 => 9
  | .prod _ "elec" _ 1 => 4
  | .fout .. => 2
  | .cap .. => 3
  | _ => 0

/-- a solver for both scenarios -/
def windSolver : Solver := fun log => if log.all (Cmd.check log windyAnswer) then windyAnswer else stillAnswer

theorem windSolver_feasible {k : ℕ} (hk : k < windStudy.nbScn) : Answers windSolver windStudy k Cmd.Feasible := by
  intro steps log h
  obtain rfl := logOf_eq h
  unfold windSolver
  split
  · exact Cmd.feasible_of_check ‹_›
  · rename_i hn
    have h2 : windStudy.nbScn = 2 := by decide +kernel
    obtain rfl | rfl : k = 0 ∨ k = 1 := by omega
    · exact absurd (by decide +kernel) hn
    · exact Cmd.feasible_of_check (by decide +kernel)

theorem meanAnswer_optimal : Answers (fun _ => meanAnswer) meanStudy 0 Cmd.Optimal := by
  intro steps log h
  obtain rfl := logOf_eq h
  refine ⟨Cmd.feasible_of_check (by decide +kernel), ?_⟩
  intro y hy
  have b1 := hy.1.1 (.lol 0 "elec" "a" 0) 0 15 (by decide +kernel)
  have b2 := hy.1.1 (.prod 0 "elec" "a" 0) 0 9 (by decide +kernel)
  have b3 := hy.1.1 (.fin 0 "elec" "a" 0) 0 2 (by decide +kernel)
  have b4 := hy.1.1 (.fout 0 "elec" "a" 0) 0 2 (by decide +kernel)
  have b5 := hy.1.1 (.link 0 "elec" "a" 0) 0 4 (by decide +kernel)
  have b6 := hy.1.1 (.prod 0 "gas" "g" 0) 0 10 (by decide +kernel)
  have b7 := hy.1.1 (.convDest 0 "conv") 0 3 (by decide +kernel)
  have r1 := value_ge hy (r := .adeq 0 "elec" "a") (lo := 15) (hi := 15)
    (d := [(.lol 0 "elec" "a" 0, 1), (.prod 0 "elec" "a" 0, 1), (.prod 0 "elec" "a" 1, 1), (.fin 0 "elec" "a" 0, -1),
      (.fout 0 "elec" "a" 0, 1), (.link 0 "elec" "a" 0, -1)]) (by decide +kernel) (by decide +kernel)
  have e : Cmd.objCoefs (logOf meanStudy 0) = [(.lol 0 "elec" "a" 0, 100), (.prod 0 "elec" "a" 0, 0),
      (.prod 0 "elec" "a" 1, 70), (.cap 0 "elec" "a" 0, 0), (.link 0 "elec" "a" 0, 1), (.prod 0 "gas" "g" 0, 1),
      (.convDest 0 "conv", 2)] := by
    decide +kernel
  have e' : Cmd.objective (logOf meanStudy 0) meanAnswer = 280 := by decide +kernel
  dsimp only
  rw [e']
  unfold Cmd.objective
  rw [e]
  simp only [Cmd.value, List.map_cons, List.map_nil, List.sum_cons, List.sum_nil] at r1 ⊢
  linarith [b1.1, b2.2, b3.1, b4.2, b5.1, b6.1, b7.1, r1.1]

theorem meanStudy_ratios : RatiosNonneg meanStudy 0 := by unfold RatiosNonneg; decide +kernel

example := C85 (by norm_num) (by norm_num) windStudy_ready windStudy_ready meanStudy_ready (by decide +kernel) (by decide +kernel)
  (by decide +kernel) wind_blend meanStudy_ratios (Ready.solve windStudy_ready windSolver ⟨[], [], 0, 0⟩)
  (Ready.solve windStudy_ready windSolver ⟨[], [], 0, 0⟩) (Ready.solve meanStudy_ready (fun _ => meanAnswer) ⟨[], [], 0, 0⟩)
  (windSolver_feasible (by decide +kernel)) (windSolver_feasible (by decide +kernel)) meanAnswer_optimal
example := C86 half_weights windStudy_ready meanStudy_ready (by decide +kernel) wind_mean meanStudy_ratios
  (Ready.solve windStudy_ready windSolver ⟨[], [], 0, 0⟩) (Ready.solve meanStudy_ready (fun _ => meanAnswer) ⟨[], [], 0, 0⟩)
  (fun _ hk => windSolver_feasible hk) meanAnswer_optimal

theorem windStudy_noSelf : NoSelfLink windStudy := by
  rintro g d n ⟨net, hg, hd⟩
  have : ∀ p ∈ windStudy.networks, ∀ q ∈ p.2.nodes, ∀ l ∈ q.2.links, l.dest ≠ q.1 := by decide +kernel
  exact this _ hg _ hd

theorem windStudy_one : OneStorage windStudy := by
  rintro g d n ⟨net, hg, hd⟩
  have : ∀ p ∈ windStudy.networks, ∀ q ∈ p.2.nodes, q.2.storages.length ≤ 1 := by decide +kernel
  exact this _ hg _ hd

theorem meanStudy_noSelf : NoSelfLink meanStudy := by
  rintro g d n ⟨net, hg, hd⟩
  have : ∀ p ∈ meanStudy.networks, ∀ q ∈ p.2.nodes, ∀ l ∈ q.2.links, l.dest ≠ q.1 := by decide +kernel
  exact this _ hg _ hd

theorem meanStudy_one : OneStorage meanStudy := by
  rintro g d n ⟨net, hg, hd⟩
  have : ∀ p ∈ meanStudy.networks, ∀ q ∈ p.2.nodes, q.2.storages.length ≤ 1 := by decide +kernel
  exact this _ hg _ hd

set_option synthInstance.maxSize 1024 in
theorem windStudy_limits {k : ℕ} (hk : k < windStudy.nbScn) : LimitsOk windStudy k := by
  have h2 : windStudy.nbScn = 2 := by decide +kernel
  have h : ∀ k < windStudy.nbScn, (∀ p ∈ windStudy.networks, ∀ q ∈ p.2.nodes,
      (∀ c ∈ q.2.consumptions, ∀ t < windStudy.horizon, 0 ≤ val c.quantity k t) ∧
      (∀ c ∈ q.2.productions, ∀ t < windStudy.horizon, 0 ≤ val c.quantity k t) ∧
      (∀ c ∈ q.2.links, ∀ t < windStudy.horizon, 0 ≤ val c.quantity k t) ∧
      (∀ c ∈ q.2.storages, ∀ t < windStudy.horizon, 0 ≤ c.initCapacity ∧
        c.initCapacity ≤ val c.capacity k t ∧ 0 ≤ val c.flowIn k t ∧ 0 ≤ val c.flowOut k t)) ∧
      (∀ p ∈ windStudy.converters, ∀ t < windStudy.horizon, 0 ≤ fval p.2.max k t ∧ ∀ q ∈ p.2.srcRatios, 0 ≤ val q.2 k t) := by
    decide +kernel
  refine ⟨?_, ?_, ?_, ?_, (h k hk).2⟩
  · rintro g d n ⟨net, hg, hd⟩; exact ((h k hk).1 _ hg _ hd).1
  · rintro g d n ⟨net, hg, hd⟩; exact ((h k hk).1 _ hg _ hd).2.1
  · rintro g d n ⟨net, hg, hd⟩; exact ((h k hk).1 _ hg _ hd).2.2.1
  · rintro g d n ⟨net, hg, hd⟩; exact ((h k hk).1 _ hg _ hd).2.2.2

example : ∃ D, Spec.Feasible meanStudy 0 D := by
  obtain ⟨D₁, h₁⟩ := C23_documented windStudy_ready.built (windStudy_limits (k := 0) (by decide +kernel))
  obtain ⟨D₂, h₂⟩ := C23_documented windStudy_ready.built (windStudy_limits (k := 1) (by decide +kernel))
  exact ⟨_, C85_feasible (by norm_num) (by norm_num) wind_blend meanStudy_ratios meanStudy_noSelf meanStudy_one h₁ h₂⟩

/-- fuel is burnt in the first scenario -/
def burnsFuel : Var → ℚ
  | .prod _ _ _ 0 => 4
  | .prod _ _ _ 1 => 5
  | .lol .. => 1
  | _ => 0

/-- but not in the second, where it costs more than the load is worth -/
def sparesFuel : Var → ℚ
  | .prod _ _ _ 0 => 4
  | .lol .. => 6
  | _ => 0

theorem fuelStudy_ready : Ready fuelStudy where
  built := ⟨1, 2, _, by
    intro c hc
    simp only [fuelCalls, List.mem_cons, List.not_mem_nil, or_false] at hc
    rcases hc with rfl | rfl | rfl | rfl | rfl <;> simp [RawCall], rfl⟩
  complete := by unfold CompleteConverters; decide +kernel
  ratios := RatiosNonzero.usable (by unfold RatiosNonzero; decide +kernel)
  clean := cleanSources_of (by decide +kernel)

theorem meanFuelStudy_ready : Ready meanFuelStudy where
  built := ⟨1, 1, _, by
    intro c hc
    simp only [fuelCalls, List.mem_cons, List.not_mem_nil, or_false] at hc
    rcases hc with rfl | rfl | rfl | rfl | rfl <;> simp [RawCall], rfl⟩
  complete := by unfold CompleteConverters; decide +kernel
  ratios := RatiosNonzero.usable (by unfold RatiosNonzero; decide +kernel)
  clean := cleanSources_of (by decide +kernel)

theorem burnsFuel_optimal : Answers (fun _ => burnsFuel) fuelStudy 0 Cmd.Optimal := by
  intro steps log h
  obtain rfl := logOf_eq h
  refine ⟨Cmd.feasible_of_check (by decide +kernel), ?_⟩
  intro y hy
  have b2 := hy.1.1 (.prod 0 "elec" "a" 0) 0 4 (by decide +kernel)
  have b3 := hy.1.1 (.prod 0 "elec" "a" 1) 0 5 (by decide +kernel)
  have r1 := value_ge hy (r := .adeq 0 "elec" "a") (lo := 10) (hi := 10)
    (d := [(.lol 0 "elec" "a" 0, 1), (.prod 0 "elec" "a" 0, 1), (.prod 0 "elec" "a" 1, 1)]) (by decide +kernel) (by decide +kernel)
  have e : Cmd.objCoefs (logOf fuelStudy 0) = [(.lol 0 "elec" "a" 0, 100), (.prod 0 "elec" "a" 0, 0), (.prod 0 "elec" "a" 1, 30)] := by
    decide +kernel
  have e' : Cmd.objective (logOf fuelStudy 0) burnsFuel = 250 := by decide +kernel
  dsimp only
  rw [e']
  unfold Cmd.objective
  rw [e]
  simp only [Cmd.value, List.map_cons, List.map_nil, List.sum_cons, List.sum_nil] at r1 ⊢
  linarith [b2.2, b3.2, r1.1]

theorem sparesFuel_optimal : Answers (fun _ => sparesFuel) fuelStudy 1 Cmd.Optimal := by
  intro steps log h
  obtain rfl := logOf_eq h
  refine ⟨Cmd.feasible_of_check (by decide +kernel), ?_⟩
  intro y hy
  have b2 := hy.1.1 (.prod 0 "elec" "a" 0) 0 4 (by decide +kernel)
  have b3 := hy.1.1 (.prod 0 "elec" "a" 1) 0 5 (by decide +kernel)
  have r1 := value_ge hy (r := .adeq 0 "elec" "a") (lo := 10) (hi := 10)
    (d := [(.lol 0 "elec" "a" 0, 1), (.prod 0 "elec" "a" 0, 1), (.prod 0 "elec" "a" 1, 1)]) (by decide +kernel) (by decide +kernel)
  have e : Cmd.objCoefs (logOf fuelStudy 1) = [(.lol 0 "elec" "a" 0, 100), (.prod 0 "elec" "a" 0, 0), (.prod 0 "elec" "a" 1, 150)] := by
    decide +kernel
  have e' : Cmd.objective (logOf fuelStudy 1) sparesFuel = 600 := by decide +kernel
  dsimp only
  rw [e']
  unfold Cmd.objective
  rw [e]
  simp only [Cmd.value, List.map_cons, List.map_nil, List.sum_cons, List.sum_nil] at r1 ⊢
  linarith [b2.2, b3.1, r1.1]

theorem burnsFuel_mean : Answers (fun _ => burnsFuel) meanFuelStudy 0 Cmd.Feasible := by
  intro steps log h
  obtain rfl := logOf_eq h
  exact Cmd.feasible_of_check (by decide +kernel)

/-- 250 and 600 in the scenarios, 550 with the mean price -/
example := C85_costs (by norm_num) (by norm_num) fuelStudy_ready fuelStudy_ready meanFuelStudy_ready (by decide +kernel) (by decide +kernel)
  (by decide +kernel) fuel_blend (by unfold RatiosNonneg; decide +kernel) (Ready.solve fuelStudy_ready (fun _ => burnsFuel) ⟨[], [], 0, 0⟩)
  (Ready.solve fuelStudy_ready (fun _ => sparesFuel) ⟨[], [], 0, 0⟩) (Ready.solve meanFuelStudy_ready (fun _ => burnsFuel) ⟨[], [], 0, 0⟩)
  burnsFuel_optimal sparesFuel_optimal burnsFuel_mean

end Hadar.Props
