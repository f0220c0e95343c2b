import Verif.Proofs.Window
import Verif.Props.Optimum
import Verif.Props.Parts

/-!
# C88: part of the time steps of a study
-/

namespace Hadar.Props

open Hadar Spec

variable {s s₁ s₂ : Study} {solver solver₁ solver₂ : Solver} {b b₁ b₂ : Benchmark} {r r₁ r₂ : Result} {k k₁ k₂ a : ℕ}

/-- C88: solving some of the steps, from the levels that a solution of the whole has reached, never costs more than these
steps of that solution, -/
theorem C88_window (hs : Ready s) (hs₁ : Ready s₁) (hk : k < s.nbScn) (hk₁ : k₁ < s₁.nbScn)
    (hr : solveLp solver b s = .ok r) (hr₁ : solveLp solver₁ b₁ s₁ = .ok r₁)
    (ha : Answers solver s k Cmd.Feasible) (ha₁ : Answers solver₁ s₁ k₁ Cmd.Optimal)
    (hw : Window a s k s₁ k₁) (hst : StartsFrom s s₁ (dispatchOf s r k) a) :
    cost s₁ k₁ (dispatchOf s₁ r₁ k₁) ≤ sumL (List.range s₁.horizon) fun t => stepCost s k (dispatchOf s r k) (a + t) := by
  obtain rfl := Ready.result hs hr
  obtain rfl := Ready.result hs₁ hr₁
  have hf := (codeFeasible_iff (Built.inv hs.built) hk _ b).mp (Ready.answer hs hk ha)
  have ho := optimal_result (Built.inv hs₁.built) hk₁ _ b₁ (Ready.answer hs₁ hk₁ ha₁)
  rw [← hw.cost]
  exact ho.2 _ (hw.feasible hst hf)

/-- C88: a solution of the first steps followed by a solution of the next ones, from the levels reached, never costs less
than the least cost of the whole, -/
theorem C88_rolling (hs : Ready s) (hs₁ : Ready s₁) (hs₂ : Ready s₂) (hk : k < s.nbScn) (hk₁ : k₁ < s₁.nbScn) (hk₂ : k₂ < s₂.nbScn)
    (hr : solveLp solver b s = .ok r) (hr₁ : solveLp solver₁ b₁ s₁ = .ok r₁) (hr₂ : solveLp solver₂ b₂ s₂ = .ok r₂)
    (ha : Answers solver s k Cmd.Optimal) (ha₁ : Answers solver₁ s₁ k₁ Cmd.Feasible) (ha₂ : Answers solver₂ s₂ k₂ Cmd.Feasible)
    (hw₁ : Window 0 s k s₁ k₁) (hw₂ : Window s₁.horizon s k s₂ k₂) (hh : s₁.horizon + s₂.horizon = s.horizon)
    (hst₁ : SameStart s s₁) (hst₂ : StartsFrom s₁ s₂ (dispatchOf s₁ r₁ k₁) s₁.horizon) :
    cost s k (dispatchOf s r k) ≤ cost s₁ k₁ (dispatchOf s₁ r₁ k₁) + cost s₂ k₂ (dispatchOf s₂ r₂ k₂) := by
  obtain rfl := Ready.result hs hr
  obtain rfl := Ready.result hs₁ hr₁
  obtain rfl := Ready.result hs₂ hr₂
  have ho := optimal_result (Built.inv hs.built) hk _ b (Ready.answer hs hk ha)
  have h₁ := (codeFeasible_iff (Built.inv hs₁.built) hk₁ _ b₁).mp (Ready.answer hs₁ hk₁ ha₁)
  have h₂ := (codeFeasible_iff (Built.inv hs₂.built) hk₂ _ b₂).mp (Ready.answer hs₂ hk₂ ha₂)
  rw [← glue_cost hw₁ hw₂ hh]
  exact ho.2 _ (glue_feasible hw₁ hw₂ hh hst₁ hst₂ h₁ h₂)

/-- C88: the last steps of an optimal solution are optimal for the levels it has reached: solving them again, alone, costs
the same -/
theorem C88 (hs : Ready s) (hs₂ : Ready s₂) (hk : k < s.nbScn) (hk₂ : k₂ < s₂.nbScn)
    (hr : solveLp solver b s = .ok r) (hr₂ : solveLp solver₂ b₂ s₂ = .ok r₂)
    (ha : Answers solver s k Cmd.Optimal) (ha₂ : Answers solver₂ s₂ k₂ Cmd.Optimal)
    (hw : Window a s k s₂ k₂) (hh : a + s₂.horizon = s.horizon) (hst : StartsFrom s s₂ (dispatchOf s r k) a) :
    cost s₂ k₂ (dispatchOf s₂ r₂ k₂) = sumL (List.range s₂.horizon) fun t => stepCost s k (dispatchOf s r k) (a + t) := by
  apply le_antisymm (C88_window hs hs₂ hk hk₂ hr hr₂ (fun _ _ h => (ha _ _ h).1) ha₂ hw hst)
  obtain rfl := Ready.result hs hr
  obtain rfl := Ready.result hs₂ hr₂
  have ho := optimal_result (Built.inv hs.built) hk _ b (Ready.answer hs hk ha)
  have h₂ := (optimal_result (Built.inv hs₂.built) hk₂ _ b₂ (Ready.answer hs₂ hk₂ ha₂)).1
  generalize dispatchOf s (resultAll s (valsOf solver s) b) k = D at ho hst ⊢
  have hw₁ : Window 0 s k (firstSteps s a) k := firstSteps_window (by omega)
  have hst₁ : StartsFrom s (firstSteps s a) D 0 := by
    intro g d n n' hn hn' i c c' hc hc'
    obtain rfl := hasNode_unique (Built.inv hs.built) hn hn'
    rw [hc] at hc'
    cases hc'
    rfl
  have h₁ := hw₁.feasible hst₁ ho.1
  rw [shift_zero] at h₁
  have hsame : SameStart s (firstSteps s a) := hst₁
  have e := glue_cost (D := D) (E := dispatchOf s₂ (resultAll s₂ (valsOf solver₂ s₂) b₂) k₂) hw₁ hw hh
  have key := ho.2 _ (glue_feasible hw₁ hw hh hsame hst h₁ h₂)
  have key' := key.trans_eq e
  have split : cost s k D = cost (firstSteps s a) k D +
      sumL (List.range s₂.horizon) fun t => stepCost s k D (a + t) := by
    rw [cost_steps, ← hh, List.range_add]
    unfold sumL
    rw [List.map_append, List.sum_append, List.map_map]
    rfl
  linarith

/-- no storage in the study -/
def NoStorage (s : Study) : Prop := ∀ g d n, HasNode s g d n → n.storages = []

/-- C88: without storages, solving part by part costs the least cost of the whole -/
theorem C88_apart (hs : Ready s) (hs₁ : Ready s₁) (hs₂ : Ready s₂) (hk : k < s.nbScn) (hk₁ : k₁ < s₁.nbScn) (hk₂ : k₂ < s₂.nbScn)
    (hr : solveLp solver b s = .ok r) (hr₁ : solveLp solver₁ b₁ s₁ = .ok r₁) (hr₂ : solveLp solver₂ b₂ s₂ = .ok r₂)
    (ha : Answers solver s k Cmd.Optimal) (ha₁ : Answers solver₁ s₁ k₁ Cmd.Optimal) (ha₂ : Answers solver₂ s₂ k₂ Cmd.Optimal)
    (hw₁ : Window 0 s k s₁ k₁) (hw₂ : Window s₁.horizon s k s₂ k₂) (hh : s₁.horizon + s₂.horizon = s.horizon)
    (hno : NoStorage s) :
    cost s k (dispatchOf s r k) = cost s₁ k₁ (dispatchOf s₁ r₁ k₁) + cost s₂ k₂ (dispatchOf s₂ r₂ k₂) := by
  have hst : ∀ {s' : Study} (D : Dispatch) (a : ℕ), StartsFrom s s' D a := by
    intro s' D a g d n n' hn _ i c c' hc _
    rw [hno g d n hn] at hc
    cases hc
  have hst' : ∀ (D : Dispatch) (a : ℕ), StartsFrom s₁ s₂ D a := by
    intro D a g d n n' hn _ i c c' hc _
    obtain ⟨m, hm, hN⟩ := hw₁.nodeBack hn
    have := hN.storages
    rw [hno g d m hm, List.forall₂_nil_left_iff] at this
    rw [this] at hc
    cases hc
  refine le_antisymm (C88_rolling hs hs₁ hs₂ hk hk₁ hk₂ hr hr₁ hr₂ ha (fun _ _ h => (ha₁ _ _ h).1) (fun _ _ h => (ha₂ _ _ h).1)
    hw₁ hw₂ hh (fun g d n n' hn hn' i c c' hc hc' => hst (dispatchOf s r k) 0 g d n n' hn hn' i c c' hc hc') (hst' _ _)) ?_
  have h₁ := C88_window hs hs₁ hk hk₁ hr hr₁ (fun _ _ h => (ha _ _ h).1) ha₁ hw₁ (hst _ _)
  have h₂ := C88_window hs hs₂ hk hk₂ hr hr₂ (fun _ _ h => (ha _ _ h).1) ha₂ hw₂ (hst _ _)
  rw [cost_steps (s := s), ← hh, List.range_add]
  unfold sumL at h₁ h₂ ⊢
  rw [List.map_append, List.sum_append, List.map_map]
  simp only [Nat.zero_add] at h₁
  exact add_le_add h₁ h₂

/-- C88: with costs that are not negative, a study never costs less than its first steps alone -/
theorem C88_shorter (hs : Ready s) (hs₁ : Ready s₁) (hk : k < s.nbScn) (hk₁ : k₁ < s₁.nbScn)
    (hr : solveLp solver b s = .ok r) (hr₁ : solveLp solver₁ b₁ s₁ = .ok r₁)
    (ha : Answers solver s k Cmd.Feasible) (ha₁ : Answers solver₁ s₁ k₁ Cmd.Optimal)
    (hw : Window 0 s k s₁ k₁) (hst : SameStart s s₁) (hc : CostsNonneg s k) :
    cost s₁ k₁ (dispatchOf s₁ r₁ k₁) ≤ cost s k (dispatchOf s r k) := by
  have h₁ := C88_window hs hs₁ hk hk₁ hr hr₁ ha ha₁ hw hst
  refine h₁.trans ?_
  obtain rfl := Ready.result hs hr
  have hf := (codeFeasible_iff (Built.inv hs.built) hk _ b).mp (Ready.answer hs hk ha)
  simp only [Nat.zero_add]
  have hle := hw.within
  rw [Nat.zero_add] at hle
  obtain ⟨m, e⟩ := Nat.exists_eq_add_of_le hle
  rw [cost_steps, e, List.range_add]
  unfold sumL
  rw [List.map_append, List.sum_append, le_add_iff_nonneg_right, List.map_map]
  apply sumL_nonneg' (l := List.range m) (f := fun t => stepCost s k _ (s₁.horizon + t))
  intro t ht
  rw [List.mem_range] at ht
  exact stepCost_nonneg hc hf (by omega)

/-! ### A concrete case: two steps, a storage -/

/-- production is cheap but limited; the load of the second step can only be served from the storage -/
def stepsCalls (load : Raw) (init : ℚ) : List Call :=
  [.studyNetwork "elec", .netNode 0 "a", .nodeConsumption 0 "load" (.num 100) load, .nodeProduction 0 "nuke" (.num 10) (.num 3),
   .nodeStorage 0 ⟨"cell", .num 8, .num 2, .num 2, .num 0, init, .num 1⟩]

def wholeStudy : Study := ((World.start 2 1).run (stepsCalls (.array ⟨[2], [1, 4], rfl⟩) 0)).study
def firstStudy : Study := ((World.start 1 1).run (stepsCalls (.num 1) 0)).study
def nextStudy : Study := ((World.start 1 1).run (stepsCalls (.num 4) 0)).study
def tailStudy : Study := ((World.start 1 1).run (stepsCalls (.num 4) 1)).study

theorem whole_ready : Ready wholeStudy where
  built := ⟨2, 1, _, rawCalls_of (by decide +kernel), rfl⟩
  complete := by unfold CompleteConverters; decide +kernel
  ratios := RatiosNonzero.usable (by unfold RatiosNonzero; decide +kernel)
  clean := cleanSources_of (by decide +kernel)

theorem first_ready : Ready firstStudy where
  built := ⟨1, 1, _, rawCalls_of (by decide +kernel), rfl⟩
  complete := by unfold CompleteConverters; decide +kernel
  ratios := RatiosNonzero.usable (by unfold RatiosNonzero; decide +kernel)
  clean := cleanSources_of (by decide +kernel)

theorem next_ready : Ready nextStudy where
  built := ⟨1, 1, _, rawCalls_of (by decide +kernel), rfl⟩
  complete := by unfold CompleteConverters; decide +kernel
  ratios := RatiosNonzero.usable (by unfold RatiosNonzero; decide +kernel)
  clean := cleanSources_of (by decide +kernel)

theorem tail_ready : Ready tailStudy where
  built := ⟨1, 1, _, rawCalls_of (by decide +kernel), rfl⟩
  complete := by unfold CompleteConverters; decide +kernel
  ratios := RatiosNonzero.usable (by unfold RatiosNonzero; decide +kernel)
  clean := cleanSources_of (by decide +kernel)

instance (h a k k' : ℕ) (v v' : NumVal) : Decidable (Later h a k k' v v') :=
  inferInstanceAs (Decidable (∀ t < h, val v' k' t = val v k (a + t)))

instance (h a k k' : ℕ) (n n' : InputNode) : Decidable (NodeWindow h a k k' n n') :=
  decidable_of_iff (_ ∧ _ ∧ _ ∧ _) ⟨fun x => ⟨x.1, x.2.1, x.2.2.1, x.2.2.2⟩, fun x => ⟨x.1, x.2, x.3, x.4⟩⟩

theorem first_window : Window 0 wholeStudy 0 firstStudy 0 :=
  ⟨by decide +kernel, by decide +kernel, by exact .nil⟩

theorem next_window : Window 1 wholeStudy 0 nextStudy 0 :=
  ⟨by decide +kernel, by decide +kernel, by exact .nil⟩

theorem tail_window : Window 1 wholeStudy 0 tailStudy 0 :=
  ⟨by decide +kernel, by decide +kernel, by exact .nil⟩

def wholeAnswer : Var → ℚ
  | .prod 0 .. => 2
  | .prod 1 .. => 3
  | .cap 0 .. => 1
  | .fin 0 .. => 1
  | .fout 1 .. => 1
  | _ => 0

def firstAnswer : Var → ℚ
  | .prod .. => 1
  | _ => 0

def tailAnswer : Var → ℚ
  | .prod .. => 3
  | .fout .. => 1
  | _ => 0

def nextAnswer : Var → ℚ
  | .prod .. => 3
  | .lol .. => 1
  | _ => 0

theorem wholeAnswer_optimal : Answers (fun _ => wholeAnswer) wholeStudy 0 Cmd.Optimal := by
  intro steps log h
  obtain rfl := logOf_eq h
  refine ⟨Cmd.feasible_of_check (by decide +kernel), ?_⟩
  intro y hy
  have r1 := value_ge hy (r := .adeq 0 "elec" "a") (lo := 1) (hi := 1) (d := [(.lol 0 "elec" "a" 0, 1),
    (.prod 0 "elec" "a" 0, 1), (.fin 0 "elec" "a" 0, -1), (.fout 0 "elec" "a" 0, 1)]) (by decide +kernel) (by decide +kernel)
  have r2 := value_ge hy (r := .adeq 1 "elec" "a") (lo := 4) (hi := 4) (d := [(.lol 1 "elec" "a" 0, 1),
    (.prod 1 "elec" "a" 0, 1), (.fin 1 "elec" "a" 0, -1), (.fout 1 "elec" "a" 0, 1)]) (by decide +kernel) (by decide +kernel)
  have r3 := value_ge hy (r := .stor 0 "elec" "a" "cell") (lo := 0) (hi := 0) (d := [(.fin 0 "elec" "a" 0, -1),
    (.fout 0 "elec" "a" 0, 1), (.cap 0 "elec" "a" 0, 1)]) (by decide +kernel) (by decide +kernel)
  have r4 := value_ge hy (r := .stor 1 "elec" "a" "cell") (lo := 0) (hi := 0) (d := [(.fin 1 "elec" "a" 0, -1),
    (.fout 1 "elec" "a" 0, 1), (.cap 0 "elec" "a" 0, -1), (.cap 1 "elec" "a" 0, 1)]) (by decide +kernel) (by decide +kernel)
  have b1 := hy.1.1 (.cap 1 "elec" "a" 0) 0 8 (by decide +kernel)
  have b2 := hy.1.1 (.lol 0 "elec" "a" 0) 0 1 (by decide +kernel)
  have b3 := hy.1.1 (.lol 1 "elec" "a" 0) 0 4 (by decide +kernel)
  have e : Cmd.objCoefs (logOf wholeStudy 0) = [(.lol 0 "elec" "a" 0, 100), (.prod 0 "elec" "a" 0, 10), (.cap 0 "elec" "a" 0, 0),
      (.lol 1 "elec" "a" 0, 100), (.prod 1 "elec" "a" 0, 10), (.cap 1 "elec" "a" 0, 0)] := by decide +kernel
  simp only [Cmd.value, List.map_cons, List.map_nil, List.sum_cons, List.sum_nil] at r1 r2 r3 r4
  unfold Cmd.objective
  rw [e]
  simp [Cmd.value, wholeAnswer]
  linarith [r1.1, r1.2, r2.1, r2.2, r3.1, r3.2, r4.1, r4.2, b1.1, b2.1, b3.1]

theorem firstAnswer_optimal : Answers (fun _ => firstAnswer) firstStudy 0 Cmd.Optimal := by
  intro steps log h
  obtain rfl := logOf_eq h
  refine ⟨Cmd.feasible_of_check (by decide +kernel), ?_⟩
  intro y hy
  have r1 := value_ge hy (r := .adeq 0 "elec" "a") (lo := 1) (hi := 1) (d := [(.lol 0 "elec" "a" 0, 1),
    (.prod 0 "elec" "a" 0, 1), (.fin 0 "elec" "a" 0, -1), (.fout 0 "elec" "a" 0, 1)]) (by decide +kernel) (by decide +kernel)
  have r2 := value_ge hy (r := .stor 0 "elec" "a" "cell") (lo := 0) (hi := 0) (d := [(.fin 0 "elec" "a" 0, -1),
    (.fout 0 "elec" "a" 0, 1), (.cap 0 "elec" "a" 0, 1)]) (by decide +kernel) (by decide +kernel)
  have b1 := hy.1.1 (.cap 0 "elec" "a" 0) 0 8 (by decide +kernel)
  have b2 := hy.1.1 (.lol 0 "elec" "a" 0) 0 1 (by decide +kernel)
  have b3 := hy.1.1 (.prod 0 "elec" "a" 0) 0 3 (by decide +kernel)
  have e : Cmd.objCoefs (logOf firstStudy 0) = [(.lol 0 "elec" "a" 0, 100), (.prod 0 "elec" "a" 0, 10), (.cap 0 "elec" "a" 0, 0)] := by
    decide +kernel
  simp only [Cmd.value, List.map_cons, List.map_nil, List.sum_cons, List.sum_nil] at r1 r2
  unfold Cmd.objective
  rw [e]
  simp [Cmd.value, firstAnswer]
  linarith [r1.1, r1.2, r2.1, r2.2, b1.1, b2.1, b3.2]

theorem nextAnswer_optimal : Answers (fun _ => nextAnswer) nextStudy 0 Cmd.Optimal := by
  intro steps log h
  obtain rfl := logOf_eq h
  refine ⟨Cmd.feasible_of_check (by decide +kernel), ?_⟩
  intro y hy
  have r1 := value_ge hy (r := .adeq 0 "elec" "a") (lo := 4) (hi := 4) (d := [(.lol 0 "elec" "a" 0, 1),
    (.prod 0 "elec" "a" 0, 1), (.fin 0 "elec" "a" 0, -1), (.fout 0 "elec" "a" 0, 1)]) (by decide +kernel) (by decide +kernel)
  have r2 := value_ge hy (r := .stor 0 "elec" "a" "cell") (lo := 0) (hi := 0) (d := [(.fin 0 "elec" "a" 0, -1),
    (.fout 0 "elec" "a" 0, 1), (.cap 0 "elec" "a" 0, 1)]) (by decide +kernel) (by decide +kernel)
  have b1 := hy.1.1 (.cap 0 "elec" "a" 0) 0 8 (by decide +kernel)
  have b2 := hy.1.1 (.lol 0 "elec" "a" 0) 0 4 (by decide +kernel)
  have b3 := hy.1.1 (.prod 0 "elec" "a" 0) 0 3 (by decide +kernel)
  have e : Cmd.objCoefs (logOf nextStudy 0) = [(.lol 0 "elec" "a" 0, 100), (.prod 0 "elec" "a" 0, 10), (.cap 0 "elec" "a" 0, 0)] := by
    decide +kernel
  simp only [Cmd.value, List.map_cons, List.map_nil, List.sum_cons, List.sum_nil] at r1 r2
  unfold Cmd.objective
  rw [e]
  simp [Cmd.value, nextAnswer]
  linarith [r1.1, r1.2, r2.1, r2.2, b1.1, b2.1, b3.2]

theorem tailAnswer_optimal : Answers (fun _ => tailAnswer) tailStudy 0 Cmd.Optimal := by
  intro steps log h
  obtain rfl := logOf_eq h
  refine ⟨Cmd.feasible_of_check (by decide +kernel), ?_⟩
  intro y hy
  have r1 := value_ge hy (r := .adeq 0 "elec" "a") (lo := 4) (hi := 4) (d := [(.lol 0 "elec" "a" 0, 1),
    (.prod 0 "elec" "a" 0, 1), (.fin 0 "elec" "a" 0, -1), (.fout 0 "elec" "a" 0, 1)]) (by decide +kernel) (by decide +kernel)
  have r2 := value_ge hy (r := .stor 0 "elec" "a" "cell") (lo := 1) (hi := 1) (d := [(.fin 0 "elec" "a" 0, -1),
    (.fout 0 "elec" "a" 0, 1), (.cap 0 "elec" "a" 0, 1)]) (by decide +kernel) (by decide +kernel)
  have b1 := hy.1.1 (.cap 0 "elec" "a" 0) 0 8 (by decide +kernel)
  have b2 := hy.1.1 (.lol 0 "elec" "a" 0) 0 4 (by decide +kernel)
  have b3 := hy.1.1 (.prod 0 "elec" "a" 0) 0 3 (by decide +kernel)
  have e : Cmd.objCoefs (logOf tailStudy 0) = [(.lol 0 "elec" "a" 0, 100), (.prod 0 "elec" "a" 0, 10), (.cap 0 "elec" "a" 0, 0)] := by
    decide +kernel
  simp only [Cmd.value, List.map_cons, List.map_nil, List.sum_cons, List.sum_nil] at r1 r2
  unfold Cmd.objective
  rw [e]
  simp [Cmd.value, tailAnswer]
  linarith [r1.1, r1.2, r2.1, r2.2, b1.1, b2.1, b3.2]

theorem startsFrom_of {s s' : Study} {D : Dispatch} {a : ℕ} (h : ∀ p ∈ s.networks, ∀ q ∈ p.2.nodes, ∀ p' ∈ s'.networks,
    ∀ q' ∈ p'.2.nodes, p.1 = p'.1 → q.1 = q'.1 → ∀ x ∈ q.2.storages.zipIdx, ∀ y ∈ q'.2.storages.zipIdx, x.2 = y.2 →
    y.1.initCapacity = levelBefore D p.1 q.1 x.2 x.1.initCapacity a) : StartsFrom s s' D a := by
  rintro g d n n' ⟨net, hg, hd⟩ ⟨net', hg', hd'⟩ i c c' hc hc'
  exact h _ hg _ hd _ hg' _ hd' rfl rfl (c, i) (mem_zipIdx_iff.mpr hc) (c', i) (mem_zipIdx_iff.mpr hc') rfl

def wholeResult : Result := resultAll wholeStudy (valsOf (fun _ => wholeAnswer) wholeStudy) ⟨[], [], 0, 0⟩
def firstResult : Result := resultAll firstStudy (valsOf (fun _ => firstAnswer) firstStudy) ⟨[], [], 0, 0⟩
def nextResult : Result := resultAll nextStudy (valsOf (fun _ => nextAnswer) nextStudy) ⟨[], [], 0, 0⟩
def tailResult : Result := resultAll tailStudy (valsOf (fun _ => tailAnswer) tailStudy) ⟨[], [], 0, 0⟩

/-- the solution of the whole leaves 1 in the storage before the second step: the study `tailStudy` starts there, and costs
what the second step costs -/
example : cost tailStudy 0 (dispatchOf tailStudy tailResult 0) =
    sumL (List.range tailStudy.horizon) fun t => stepCost wholeStudy 0 (dispatchOf wholeStudy wholeResult 0) (1 + t) :=
  C88 whole_ready tail_ready (by decide +kernel) (by decide +kernel) (Ready.solve whole_ready _ _) (Ready.solve tail_ready _ _)
    wholeAnswer_optimal tailAnswer_optimal tail_window (by decide +kernel) (startsFrom_of (by decide +kernel))

/-- solving step after step is allowed, -/
example : cost wholeStudy 0 (dispatchOf wholeStudy wholeResult 0) ≤
    cost firstStudy 0 (dispatchOf firstStudy firstResult 0) + cost nextStudy 0 (dispatchOf nextStudy nextResult 0) :=
  C88_rolling whole_ready first_ready next_ready (by decide +kernel) (by decide +kernel) (by decide +kernel)
    (Ready.solve whole_ready _ _) (Ready.solve first_ready _ _) (Ready.solve next_ready _ _) wholeAnswer_optimal
    (fun _ _ h => (firstAnswer_optimal _ _ h).1) (fun _ _ h => (nextAnswer_optimal _ _ h).1) first_window next_window
    (by decide +kernel) (startsFrom_of (a := 0) (D := dispatchOf firstStudy firstResult 0) (by decide +kernel))
    (startsFrom_of (by decide +kernel))

/-- C88: but it can cost more than the whole: 10 for the first step, then 130, in place of 50, though each step is solved at
its least cost -/
theorem C88_myopic : ∃ s s₁ s₂ solver solver₁ solver₂ b r r₁ r₂, Ready s ∧ Ready s₁ ∧ Ready s₂ ∧
    Answers solver s 0 Cmd.Optimal ∧ Answers solver₁ s₁ 0 Cmd.Optimal ∧ Answers solver₂ s₂ 0 Cmd.Optimal ∧
    solveLp solver b s = .ok r ∧ solveLp solver₁ b s₁ = .ok r₁ ∧ solveLp solver₂ b s₂ = .ok r₂ ∧
    Window 0 s 0 s₁ 0 ∧ Window s₁.horizon s 0 s₂ 0 ∧ s₁.horizon + s₂.horizon = s.horizon ∧
    SameStart s s₁ ∧ StartsFrom s₁ s₂ (dispatchOf s₁ r₁ 0) s₁.horizon ∧
    cost s 0 (dispatchOf s r 0) = 50 ∧ cost s₁ 0 (dispatchOf s₁ r₁ 0) = 10 ∧ cost s₂ 0 (dispatchOf s₂ r₂ 0) = 130 :=
  ⟨wholeStudy, firstStudy, nextStudy, fun _ => wholeAnswer, fun _ => firstAnswer, fun _ => nextAnswer, ⟨[], [], 0, 0⟩,
    wholeResult, firstResult, nextResult, whole_ready, first_ready, next_ready, wholeAnswer_optimal, firstAnswer_optimal,
    nextAnswer_optimal, Ready.solve whole_ready _ _, Ready.solve first_ready _ _, Ready.solve next_ready _ _, first_window,
    next_window, by decide +kernel, startsFrom_of (a := 0) (D := dispatchOf firstStudy firstResult 0) (by decide +kernel),
    startsFrom_of (by decide +kernel), by decide +kernel, by decide +kernel, by decide +kernel⟩

theorem whole_costs : CostsNonneg wholeStudy 0 := by
  have h : ∀ p ∈ wholeStudy.networks, ∀ q ∈ p.2.nodes,
      (∀ c ∈ q.2.consumptions, ∀ t < wholeStudy.horizon, 0 ≤ val c.cost 0 t) ∧
      (∀ c ∈ q.2.productions, ∀ t < wholeStudy.horizon, 0 ≤ val c.cost 0 t) ∧
      (∀ c ∈ q.2.storages, ∀ t < wholeStudy.horizon, 0 ≤ val c.cost 0 t) ∧
      (∀ c ∈ q.2.links, ∀ t < wholeStudy.horizon, 0 ≤ val c.cost 0 t) := by decide +kernel
  refine ⟨?_, ?_, ?_, ?_, by decide +kernel⟩
  · rintro g d n ⟨net, hg, hd⟩; exact (h _ hg _ hd).1
  · rintro g d n ⟨net, hg, hd⟩; exact (h _ hg _ hd).2.1
  · rintro g d n ⟨net, hg, hd⟩; exact (h _ hg _ hd).2.2.1
  · rintro g d n ⟨net, hg, hd⟩; exact (h _ hg _ hd).2.2.2

example : cost firstStudy 0 (dispatchOf firstStudy firstResult 0) ≤ cost wholeStudy 0 (dispatchOf wholeStudy wholeResult 0) :=
  C88_shorter whole_ready first_ready (by decide +kernel) (by decide +kernel) (Ready.solve whole_ready _ _)
    (Ready.solve first_ready _ _) (fun _ _ h => (wholeAnswer_optimal _ _ h).1) firstAnswer_optimal first_window
    (startsFrom_of (a := 0) (D := dispatchOf firstStudy firstResult 0) (by decide +kernel)) whole_costs

/-! ### A concrete case without storage: `partStudy` (`Parts`), step after step -/

def partStep (load : ℚ) : List Call :=
  [.studyNetwork "elec", .netNode 0 "a", .nodeConsumption 0 "load" (.num 100) (.num load),
   .nodeProduction 0 "nuke" (.num 20) (.num 5), .netNode 0 "b", .nodeProduction 0 "fuel" (.num 70) (.num 2),
   .netLink 0 "b" "a" (.num 1) (.num 1),
   .studyNetwork "gas", .netNode 1 "g", .nodeConsumption 1 "heat" (.num 50) (.num 1),
   .nodeProduction 1 "well" (.num 1) (.num 10)]

def partFirst : Study := ((World.start 1 1).run (partStep 3)).study
def partNext : Study := ((World.start 1 1).run (partStep 8)).study

theorem partFirst_ready : Ready partFirst where
  built := ⟨1, 1, _, rawCalls_of (by decide +kernel), rfl⟩
  complete := by unfold CompleteConverters; decide +kernel
  ratios := RatiosNonzero.usable (by unfold RatiosNonzero; decide +kernel)
  clean := cleanSources_of (by decide +kernel)

theorem partNext_ready : Ready partNext where
  built := ⟨1, 1, _, rawCalls_of (by decide +kernel), rfl⟩
  complete := by unfold CompleteConverters; decide +kernel
  ratios := RatiosNonzero.usable (by unfold RatiosNonzero; decide +kernel)
  clean := cleanSources_of (by decide +kernel)

example (solver solver₁ solver₂ : Solver) (b : Benchmark) (r r₁ r₂ : Result) (hr : solveLp solver b partStudy = .ok r)
    (hr₁ : solveLp solver₁ b partFirst = .ok r₁) (hr₂ : solveLp solver₂ b partNext = .ok r₂)
    (ha : Answers solver partStudy 0 Cmd.Optimal) (ha₁ : Answers solver₁ partFirst 0 Cmd.Optimal)
    (ha₂ : Answers solver₂ partNext 0 Cmd.Optimal) :
    cost partStudy 0 (dispatchOf partStudy r 0) = cost partFirst 0 (dispatchOf partFirst r₁ 0) + cost partNext 0 (dispatchOf partNext r₂ 0) :=
  C88_apart partStudy_ready partFirst_ready partNext_ready (by decide +kernel) (by decide +kernel) (by decide +kernel) hr hr₁ hr₂
    ha ha₁ ha₂ ⟨by decide +kernel, by decide +kernel, by exact .nil⟩ ⟨by decide +kernel, by decide +kernel, by exact .nil⟩
    (by decide +kernel) (by
      rintro g d n ⟨net, hg, hd⟩
      have : ∀ p ∈ partStudy.networks, ∀ q ∈ p.2.nodes, q.2.storages = [] := by decide +kernel
      exact this _ hg _ hd)

/-! ### The theorems applied to concrete cases -/

example := C88_window whole_ready tail_ready (by decide +kernel) (by decide +kernel)
  (Ready.solve whole_ready (fun _ => wholeAnswer) ⟨[], [], 0, 0⟩) (Ready.solve tail_ready (fun _ => tailAnswer) ⟨[], [], 0, 0⟩)
  (fun _ _ h => (wholeAnswer_optimal _ _ h).1) tailAnswer_optimal tail_window (startsFrom_of (by decide +kernel))

end Hadar.Props
