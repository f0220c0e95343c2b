import Verif.Proofs.AtOnce
import Verif.Props.Energy
import Verif.Props.Adequacy

/-!
# C93: storages that fill and empty at the same time
-/

namespace Hadar.Props

open Hadar Spec

variable {s : Study} {solver : Solver} {b : Benchmark} {r : Result} {k : ℕ}

/-- C93 at full strength: a storage that loses energy never fills and empties at the same time -/
def C93_claim (s : Study) (k : ℕ) (D : Dispatch) : Prop :=
  ∀ g d n, HasNode s g d n → ∀ i c, n.storages[i]? = some c → ∀ t < s.horizon, 0 ≤ val c.eff k t → val c.eff k t < 1 →
    ¬ AtOnce D g d i t

/-- C93, as far as it holds, in a study without link from a node to itself: a storage that loses energy does not fill and empty at the
same time where energy is worth something, that is where one more unit would save a cost, of a production or of a cut consumption.
Elsewhere it may: see `C93_refuted`. -/
theorem C93_partial (hs : Ready s) (hself : NoSelfLink s) (hk : k < s.nbScn) (hr : solveLp solver b s = .ok r)
    (ha : Answers solver s k Cmd.Optimal) {g d : String} {n : InputNode} {i : ℕ} {c : Storage} {t : ℕ} (hn : HasNode s g d n)
    (hc : n.storages[i]? = some c) (ht : t < s.horizon) (h0 : 0 ≤ val c.eff k t) (h1 : val c.eff k t < 1)
    {v : ℚ} (hv : 0 < v) (hw : WouldSave s k (dispatchOf s r k) g d t v) : ¬ AtOnce (dispatchOf s r k) g d i t := by
  intro hat
  obtain ⟨P, he⟩ := C75 hs hself hk hr ha
  have hp := (hat.price he hn hc ht h0 h1).2
  rcases hw with ⟨n', j, p, hn', hj, hpos, rfl⟩ | ⟨n', j, p, hn', hj, hpos, rfl⟩
  · exact hpos.ne' ((he.productions g d n' hn' j p hj t ht).1 (by linarith))
  · exact hpos.ne' ((he.consumptions g d n' hn' j p hj t ht).1 (by linarith))

/-- C93: for storages that lose nothing, what goes in and out at once can be taken off both flows of any dispatch, at the same cost -/
theorem C93_lossless {w : String → String → ℕ → ℕ → Bool} (hw : Lossless w s k) {D : Dispatch} (hD : Spec.Feasible s k D) :
    Spec.Feasible s k (D.netted w) ∧ cost s k (D.netted w) = cost s k D ∧
      ∀ g d i t, w g d i t = true → ¬ AtOnce (D.netted w) g d i t :=
  ⟨netted_feasible hw hD, netted_cost, fun _ _ _ _ h => netted_once h⟩

/-! ### Concrete cases -/

/-- a tank that is full at first, in a node that needs nothing -/
def burnCalls : List Call :=
  [.studyNetwork "elec", .netNode 0 "a", .nodeStorage 0 ⟨"tank", .num 10, .num 20, .num 20, .num 1, 10, .num (1/2)⟩]

def burnStudy : Study := ((World.start 1 1).run burnCalls).study

def burnTank : Storage := ⟨"tank", ⟨.scalar 10, 1, 1⟩, ⟨.scalar 20, 1, 1⟩, ⟨.scalar 20, 1, 1⟩, ⟨.scalar 1, 1, 1⟩, 10, ⟨.scalar (1/2), 1, 1⟩⟩

def burnNode : InputNode := ⟨[], [], [burnTank], []⟩

theorem burnStudy_eq : burnStudy = ⟨burnStudy.version, [("elec", ⟨[("a", burnNode)]⟩)], [], 1, 1⟩ := by decide +kernel

theorem burnTank_ready : Ready burnStudy where
  built := ⟨1, 1, _, rawCalls_of (by decide +kernel), rfl⟩
  complete := by unfold CompleteConverters; decide +kernel
  ratios := RatiosNonzero.usable (by unfold RatiosNonzero; decide +kernel)
  clean := cleanSources_of (by decide +kernel)

def burnAnswer : Var → ℚ
  | .fin .. => 20
  | .fout .. => 20
  | _ => 0

theorem burnAnswer_feasible : Answers (fun _ => burnAnswer) burnStudy 0 Cmd.Feasible := by
  intro steps log h
  obtain rfl := logOf_eq h
  exact Cmd.feasible_of_check (by decide +kernel)

def burnResult : Result := resultAll burnStudy (valsOf (fun _ => burnAnswer) burnStudy) ⟨[], [], 0, 0⟩

/-- C93 does not hold as stated: whatever the solver that answers the least cost, the tank takes in and gives back 20 at once, and so
burns the 10 that it holds, in place of keeping them at a cost of 10 -/
theorem C93_refuted : ∃ s, Ready s ∧ NoSelfLink s ∧ OneStorage s ∧ LimitsOk s 0 ∧ CostsNonneg s 0 ∧ ∀ solver b r, solveLp solver b s = .ok r →
    Answers solver s 0 Cmd.Optimal → AtOnce (dispatchOf s r 0) "elec" "a" 0 0 ∧ ¬ C93_claim s 0 (dispatchOf s r 0) := by
  have hlim : LimitsOk burnStudy 0 := by
    have h : ∀ p ∈ burnStudy.networks, ∀ q ∈ p.2.nodes,
        (∀ c ∈ q.2.consumptions, ∀ t < burnStudy.horizon, 0 ≤ val c.quantity 0 t) ∧
        (∀ c ∈ q.2.productions, ∀ t < burnStudy.horizon, 0 ≤ val c.quantity 0 t) ∧
        (∀ c ∈ q.2.storages, ∀ t < burnStudy.horizon,
          0 ≤ c.initCapacity ∧ c.initCapacity ≤ val c.capacity 0 t ∧ 0 ≤ val c.flowIn 0 t ∧ 0 ≤ val c.flowOut 0 t) ∧
        (∀ c ∈ q.2.links, ∀ t < burnStudy.horizon, 0 ≤ val c.quantity 0 t) := by decide +kernel
    refine ⟨?_, ?_, ?_, ?_, by decide +kernel⟩
    · rintro g d n ⟨net, hg, hd⟩; exact (h _ hg _ hd).1
    · rintro g d n ⟨net, hg, hd⟩; exact (h _ hg _ hd).2.1
    · rintro g d n ⟨net, hg, hd⟩; exact (h _ hg _ hd).2.2.2
    · rintro g d n ⟨net, hg, hd⟩; exact (h _ hg _ hd).2.2.1
  have hcost : CostsNonneg burnStudy 0 := by
    have h : ∀ p ∈ burnStudy.networks, ∀ q ∈ p.2.nodes,
        (∀ c ∈ q.2.consumptions, ∀ t < burnStudy.horizon, 0 ≤ val c.cost 0 t) ∧
        (∀ c ∈ q.2.productions, ∀ t < burnStudy.horizon, 0 ≤ val c.cost 0 t) ∧
        (∀ c ∈ q.2.storages, ∀ t < burnStudy.horizon, 0 ≤ val c.cost 0 t) ∧
        (∀ c ∈ q.2.links, ∀ t < burnStudy.horizon, 0 ≤ val c.cost 0 t) := by decide +kernel
    refine ⟨?_, ?_, ?_, ?_, by decide +kernel⟩
    · rintro g d n ⟨net, hg, hd⟩; exact (h _ hg _ hd).1
    · rintro g d n ⟨net, hg, hd⟩; exact (h _ hg _ hd).2.1
    · rintro g d n ⟨net, hg, hd⟩; exact (h _ hg _ hd).2.2.1
    · rintro g d n ⟨net, hg, hd⟩; exact (h _ hg _ hd).2.2.2
  have hself : NoSelfLink burnStudy := by
    have h : ∀ p ∈ burnStudy.networks, ∀ q ∈ p.2.nodes, ∀ l ∈ q.2.links, l.dest ≠ q.1 := by decide +kernel
    rintro g d n ⟨net, hg, hd⟩; exact h _ hg _ hd
  have hone : OneStorage burnStudy := by
    have h : ∀ p ∈ burnStudy.networks, ∀ q ∈ p.2.nodes, q.2.storages.length ≤ 1 := by decide +kernel
    rintro g d n ⟨net, hg, hd⟩; exact h _ hg _ hd
  refine ⟨burnStudy, burnTank_ready, hself, hone, hlim, hcost, ?_⟩
  intro solver b r hr ha
  obtain rfl := Ready.result burnTank_ready hr
  have hi := Built.inv burnTank_ready.built
  have ho := optimal_result hi (by decide +kernel) _ b (Ready.answer burnTank_ready (by decide +kernel) ha)
  have hT := (codeFeasible_iff hi (by decide +kernel) _ ⟨[], [], 0, 0⟩).mp (Ready.answer burnTank_ready (k := 0) (by decide +kernel) burnAnswer_feasible)
  have hle := ho.2 _ hT
  have h0 : cost burnStudy 0 (dispatchOf burnStudy burnResult 0) = 0 := by decide +kernel
  have hle' : cost burnStudy 0 (dispatchOf burnStudy (resultAll burnStudy (valsOf solver burnStudy) b) 0) ≤ 0 := by
    rw [← h0]; exact hle
  generalize dispatchOf burnStudy (resultAll burnStudy (valsOf solver burnStudy) b) 0 = D at ho hle'
  have hn : HasNode burnStudy "elec" "a" burnNode := ⟨⟨[("a", burnNode)]⟩, by decide +kernel, by decide +kernel⟩
  have hc : burnNode.storages[0]? = some burnTank := rfl
  have ht : 0 < burnStudy.horizon := by decide +kernel
  have hev := ho.1.storages _ _ _ hn burnTank rfl 0 ht
  have hba := ho.1.balance _ _ _ hn 0 ht
  have hbo := ho.1.bounds.storages _ _ _ hn 0 burnTank hc 0 ht
  have e1 : cost burnStudy 0 D = D.cap "elec" "a" 0 0 := by
    have e : val burnTank.cost 0 0 = 1 := by decide +kernel
    rw [burnStudy_eq]
    simp [cost, sumL, sumI, nodeCost, burnNode, e]
  have e2 : incoming burnStudy D "elec" "a" burnNode 0 + selfFlow D "elec" "a" burnNode 0 = D.fout "elec" "a" 0 0 := by
    rw [burnStudy_eq]
    simp [incoming, imports, fromConverters, selfFlow, sumL, sumI, burnNode]
  have e3 : outgoing burnStudy 0 D "elec" "a" burnNode 0 = D.fin "elec" "a" 0 0 := by
    rw [burnStudy_eq]
    simp [outgoing, toConverters, sumL, sumI, burnNode]
  have e4 : val burnTank.eff 0 0 = 1 / 2 := by decide +kernel
  have e5 : burnTank.initCapacity = 10 := rfl
  rw [e1] at hle'
  rw [e2, e3] at hba
  simp only [Evolves, levelBefore, e4, e5] at hev
  have hat : AtOnce D "elec" "a" 0 0 := ⟨by linarith [hbo.1.1], by linarith [hbo.1.1]⟩
  exact ⟨hat, fun hcl => hcl _ _ _ hn 0 burnTank hc 0 ht (by rw [e4]; norm_num) (by rw [e4]; norm_num) hat⟩

/-- `priceStudy` (two time steps, a storage that loses half of what it takes in): where production runs, the storage of `a` does not fill
and empty at once -/
example : ¬ AtOnce (dispatchOf priceStudy priceResult 0) "elec" "a" 0 0 :=
  C93_partial priceStudy_ready priceStudy_noSelf (by decide +kernel) (Ready.solve priceStudy_ready _ _) priceAnswer_optimal priceStudy_a
    (c := ((inNode priceStudy "elec" "a").storages[0]?).getD burnTank) (by decide +kernel) (by decide +kernel) (by decide +kernel)
    (by decide +kernel) (v := 20) (by norm_num)
    (.inl ⟨_, 0, ⟨"nuke", ⟨.scalar 20, 2, 1⟩, ⟨.scalar 15, 2, 1⟩⟩, priceStudy_a, by decide +kernel, by decide +kernel, by decide +kernel⟩)

/-- a battery without losses that fills and empties at once -/
def sparkStudy : Study := ((World.start 1 1).run [.studyNetwork "elec", .netNode 0 "a",
  .nodeConsumption 0 "load" (.num 100) (.num 3), .nodeProduction 0 "sun" (.num 5) (.num 4),
  .nodeStorage 0 ⟨"cell", .num 8, .num 6, .num 6, .num 0, 2, .num 1⟩]).study

example : Lossless (fun _ _ _ _ => true) sparkStudy 0 := by
  have h : ∀ p ∈ sparkStudy.networks, ∀ q ∈ p.2.nodes, ∀ c ∈ q.2.storages, ∀ t < sparkStudy.horizon, val c.eff 0 t = 1 := by
    decide +kernel
  rintro g d n ⟨net, hg, hd⟩ i c hc t ht -
  exact h _ hg _ hd c (List.mem_of_getElem? hc) t ht

/-! ### The theorems applied to concrete cases -/

theorem spark_lossless : Lossless (fun _ _ _ _ => true) sparkStudy 0 := by
  have h : ∀ p ∈ sparkStudy.networks, ∀ q ∈ p.2.nodes, ∀ c ∈ q.2.storages, ∀ t < sparkStudy.horizon, val c.eff 0 t = 1 := by
    decide +kernel
  rintro g d n ⟨net, hg, hd⟩ i c hc t ht -
  exact h _ hg _ hd c (List.mem_of_getElem? hc) t ht

theorem spark_ready : Ready sparkStudy where
  built := ⟨1, 1, _, rawCalls_of (by decide +kernel), rfl⟩
  complete := by unfold CompleteConverters; decide +kernel
  ratios := RatiosNonzero.usable (by unfold RatiosNonzero; decide +kernel)
  clean := cleanSources_of (by decide +kernel)

/-- it takes 6 and gives 5 -/
def sparkAnswer : Var → ℚ
  | .prod .. => 4
  | .fin .. => 6
  | .fout .. => 5
  | .cap .. => 3
  | _ => 0

theorem sparkAnswer_feasible : Answers (fun _ => sparkAnswer) sparkStudy 0 Cmd.Feasible := by
  intro steps log h
  obtain rfl := logOf_eq h
  exact Cmd.feasible_of_check (by decide +kernel)

theorem spark_noSelf : NoSelfLink sparkStudy := by
  rintro g d n ⟨net, hg, hd⟩
  have : ∀ p ∈ sparkStudy.networks, ∀ q ∈ p.2.nodes, ∀ l ∈ q.2.links, l.dest ≠ q.1 := by decide +kernel
  exact this _ hg _ hd

theorem spark_one : OneStorage sparkStudy := by
  rintro g d n ⟨net, hg, hd⟩
  have : ∀ p ∈ sparkStudy.networks, ∀ q ∈ p.2.nodes, q.2.storages.length ≤ 1 := by decide +kernel
  exact this _ hg _ hd

def sparkDispatch : Dispatch :=
  dispatchOf sparkStudy (resultAll sparkStudy (valsOf (fun _ => sparkAnswer) sparkStudy) ⟨[], [], 0, 0⟩) 0

theorem spark_feasible : Spec.Feasible sparkStudy 0 sparkDispatch :=
  feasible_of_code spark_noSelf spark_one ((C22_exact spark_ready (Ready.solve spark_ready (fun _ => sparkAnswer) ⟨[], [], 0, 0⟩)
    (by decide +kernel)).1.mp sparkAnswer_feasible)

example : AtOnce sparkDispatch "elec" "a" 0 0 ∧ ¬ AtOnce (sparkDispatch.netted fun _ _ _ _ => true) "elec" "a" 0 0 :=
  ⟨by unfold AtOnce; decide +kernel, (C93_lossless spark_lossless spark_feasible).2.2 _ _ _ _ rfl⟩

end Hadar.Props
