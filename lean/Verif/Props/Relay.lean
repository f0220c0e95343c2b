import Verif.Proofs.Relay
import Verif.Props.Passage

/-!
# C146: a node that only passes on changes nothing
-/

namespace Hadar.Props

open Hadar Spec

variable {s s' : Study} {solver solver' : Solver} {b b' : Benchmark} {r r' : Result} {k : ℕ} {g a m : String} {l₁ l₂ l : Link}

/-- C146, for the documented problem: a dispatch with the relay is one for the straight link at the same cost, and a dispatch
for the straight link is one with the relay, where the relay passes on what it gets -/
theorem C146_feasible (h : Relayed s s' k g a m l₁ l₂ l) (hb : Built s) (hb' : Built s') :
    (∀ D, Spec.Feasible s k D → PassesOn s' g a m D ∧ Spec.Feasible s' k D ∧ cost s' k D = cost s k D) ∧
    (∀ D, Spec.Feasible s' k D → Spec.Feasible s k (viaRelay s' g a m D) ∧ cost s k (viaRelay s' g a m D) = cost s' k D) := by
  have hi := Built.inv hb
  have hi' := Built.inv hb'
  refine ⟨fun D hD => ?_, fun D hD => ?_⟩
  · obtain ⟨n, hn⟩ := h.nodeM
    have hp := relay_passes h hi hi' hn fun t ht => hD.balanced g m n hn t ht
    exact ⟨hp, (feasible_relay h hi hi' hp).mp hD, (cost_relay h hi hi' hp).symm⟩
  · have hp := viaRelay_passes h D
    have hs := viaRelay_same h D
    refine ⟨(feasible_relay h hi hi' hp).mpr ?_, ?_⟩
    · refine ⟨Bounds.congr hs hD.bounds, ?_, ?_, RatiosOk.congr hs hD.ratios⟩
      · intro g' d n hn t ht
        rw [← incoming_congr hs hn ht, ← outgoing_congr hs hn ht]
        exact hD.balanced g' d n hn t ht
      · intro g' d n hn i x hx t ht
        exact Evolves.congr hs hn hx ht (hD.storages g' d n hn i x hx t ht)
    · rw [cost_relay h hi hi' hp, cost_congr hs]

/-- C146, for straight links between different nodes: with the relay and with the straight link, solutions have the same cost,
and the relay passes on what it gets. Missing: a relay that gives back to the node it gets from, see `C146_refuted`. -/
theorem C146_partial (h : Relayed s s' k g a m l₁ l₂ l) (haway : l.dest ≠ a) (hs : Ready s) (hs' : Ready s') (hk : k < s.nbScn)
    (hr : solveLp solver b s = .ok r) (hr' : solveLp solver' b' s' = .ok r')
    (ha : Answers solver s k Cmd.Optimal) (ha' : Answers solver' s' k Cmd.Optimal) :
    cost s k (dispatchOf s r k) = cost s' k (dispatchOf s' r' k) ∧ PassesOn s' g a m (dispatchOf s r k) := by
  obtain rfl := Ready.result hs hr
  obtain rfl := Ready.result hs' hr'
  have hi := Built.inv hs.built
  have hi' := Built.inv hs'.built
  have hk' : k < s'.nbScn := h.scenarios ▸ hk
  have ho := optimal_result hi hk _ b (Ready.answer hs hk ha)
  have ho' := optimal_result hi' hk' _ b' (Ready.answer hs' hk' ha')
  have hp := relay_passes_code h hi hi' haway ho.1
  refine ⟨le_antisymm ?_ ?_, hp⟩
  · have hq := viaRelay_passes h (dispatchOf s' (resultAll s' (valsOf solver' s') b') k)
    have hsame := viaRelay_same h (dispatchOf s' (resultAll s' (valsOf solver' s') b') k)
    rw [cost_congr hsame, ← cost_relay h hi hi' hq]
    exact ho.2 _ ((code_relay h hi hi' haway hq).mpr (CodeFeasible.congr hsame ho'.1))
  · rw [cost_relay h hi hi' hp]
    exact ho'.2 _ ((code_relay h hi hi' haway hp).mp ho.1)

/-! ### Concrete cases -/

theorem relayed_of (hh : s.horizon = s'.horizon) (hn : s.nbScn = s'.nbScn)
    (h0 : ∃ p ∈ s.networks, p.1 = g ∧ ∃ q ∈ p.2.nodes, q.1 = a)
    (h0' : ∃ p ∈ s.networks, p.1 = g ∧ ∃ q ∈ p.2.nodes, q.1 = m) (ham : a ≠ m)
    (h1 : ∀ p ∈ s.networks, ∀ q ∈ p.2.nodes, ∃ p' ∈ s'.networks, p'.1 = p.1 ∧ ∃ q' ∈ p'.2.nodes, q'.1 = q.1 ∧
      q.2.consumptions = q'.2.consumptions ∧ q.2.productions = q'.2.productions ∧ q.2.storages = q'.2.storages ∧
      (q'.2.links = (if p.1 = g ∧ q.1 = a then q'.2.links.dropLast ++ [l] else q'.2.links) ∧
      q.2.links = if p.1 = g ∧ q.1 = a then q'.2.links.dropLast ++ [l₁] else if p.1 = g ∧ q.1 = m then [l₂] else q'.2.links) ∧
      (p.1 = g ∧ q.1 = m → q'.2.consumptions = [] ∧ q'.2.productions = [] ∧ q'.2.storages = [] ∧ q'.2.links = []))
    (h1' : ∀ p' ∈ s'.networks, ∀ q' ∈ p'.2.nodes, ∃ p ∈ s.networks, p.1 = p'.1 ∧ ∃ q ∈ p.2.nodes, q.1 = q'.1)
    (hi' : StudyInv s')
    (h2 : s.converters = s'.converters)
    (h3 : ∀ p ∈ s'.networks, p.1 = g → ∀ q ∈ p.2.nodes, ∀ x ∈ q.2.links, x.dest ≠ m)
    (h4 : ∀ q ∈ s'.converters, ¬ (q.2.destNetwork = g ∧ q.2.destNode = m) ∧ ∀ r ∈ q.2.srcRatios, r.1 ≠ [g, m])
    (h5 : l₁.dest = m) (h6 : l₂.dest = l.dest)
    (h7 : ∀ t < s.horizon, val l.quantity k t = min (val l₁.quantity k t) (val l₂.quantity k t))
    (h8 : ∀ t < s.horizon, val l.cost k t = val l₁.cost k t + val l₂.cost k t) :
    Relayed s s' k g a m l₁ l₂ l := by
  have hnodes : ∀ g' d n, HasNode s g' d n → ∃ n', HasNode s' g' d n' ∧ RelayNode g a m l₁ l₂ l g' d n n' := by
    rintro g' d n ⟨net, hg, hd⟩
    obtain ⟨⟨g2, net'⟩, hg', e, ⟨d2, n'⟩, hd', e', a1, a2, a3, ⟨a4, a5⟩, a6⟩ := h1 _ hg _ hd
    dsimp only at e e' a1 a2 a3 a4 a5 a6
    subst e e'
    refine ⟨n', ⟨net', hg', hd'⟩, a1, a2, a3, ?_, a6⟩
    by_cases c1 : g2 = g ∧ d2 = a
    · rw [if_pos c1] at a4 a5
      exact ⟨n'.links.dropLast, by rw [if_pos c1]; exact a4, by rw [if_pos c1]; exact a5⟩
    · rw [if_neg c1] at a4 a5
      by_cases c2 : g2 = g ∧ d2 = m
      · rw [if_pos c2] at a5
        exact ⟨[], by rw [if_neg c1, (a6 c2).2.2.2]; rfl, by rw [if_neg c1, if_pos c2, a5]; rfl⟩
      · rw [if_neg c2] at a5
        exact ⟨n'.links, by rw [if_neg c1, List.append_nil], by rw [if_neg c1, if_neg c2, List.append_nil, a5]⟩
  refine ⟨hh, hn, ?_, ?_, ham, hnodes, ?_, h2, ?_, h4, h5, h6, h7, h8⟩
  · obtain ⟨⟨_, net⟩, hg, rfl, ⟨_, n⟩, hd, rfl⟩ := h0
    exact ⟨n, net, hg, hd⟩
  · obtain ⟨⟨_, net⟩, hg, rfl, ⟨_, n⟩, hd, rfl⟩ := h0'
    exact ⟨n, net, hg, hd⟩
  · rintro g' d n' ⟨net, hg, hd⟩
    obtain ⟨⟨g2, net'⟩, hg', e, ⟨d2, n⟩, hd', e'⟩ := h1' _ hg _ hd
    dsimp only at e e'
    subst e e'
    obtain ⟨n2, hn2, he⟩ := hnodes g2 d2 n ⟨net', hg', hd'⟩
    obtain rfl := hasNode_unique hi' hn2 ⟨net, hg, hd⟩
    exact ⟨n, ⟨net', hg', hd'⟩, he⟩
  · rintro d n' ⟨net, hg, hd⟩ x hx
    exact h3 _ hg rfl _ hd x hx

def relayCalls : List Call :=
  [.studyNetwork "n", .netNode 0 "a", .nodeProduction 0 "solar" (.num 10) (.num 50), .nodeNode 0 "m", .nodeNode 0 "b",
   .nodeConsumption 0 "load" (.num 1000) (.num 30)]

/-- a load at `b`, a production at `a`, and a substation `m` on the way -/
def relayStudy : Study := made 1 1 (relayCalls ++ [.nodeLink 0 "a" "m" (.num 2) (.num 20), .nodeLink 0 "m" "b" (.num 3) (.num 40)])

/-- the same with one link -/
def straightStudy : Study := made 1 1 (relayCalls ++ [.nodeLink 0 "a" "b" (.num 5) (.num 20)])

theorem relayStudy_ready : Ready relayStudy where
  built := ⟨1, 1, _, rawCalls_of (by decide +kernel), rfl⟩
  complete := by unfold CompleteConverters; decide +kernel
  ratios := RatiosNonzero.usable (by unfold RatiosNonzero; decide +kernel)
  clean := cleanSources_of (by decide +kernel)

theorem straightStudy_ready : Ready straightStudy where
  built := ⟨1, 1, _, rawCalls_of (by decide +kernel), rfl⟩
  complete := by unfold CompleteConverters; decide +kernel
  ratios := RatiosNonzero.usable (by unfold RatiosNonzero; decide +kernel)
  clean := cleanSources_of (by decide +kernel)

theorem relay_straight : Relayed relayStudy straightStudy 0 "n" "a" "m" ⟨"m", number 20, number 2⟩ ⟨"b", number 40, number 3⟩
    ⟨"b", number 20, number 5⟩ :=
  relayed_of (by decide +kernel) (by decide +kernel) (by decide +kernel) (by decide +kernel) (by decide) (by decide +kernel)
    (by decide +kernel) (Built.inv straightStudy_ready.built) (by decide +kernel) (by decide +kernel) (by decide +kernel) rfl rfl
    (by decide +kernel) (by decide +kernel)

/-- the hypotheses are met: through the substation or straight, whatever the optimal solvers -/
example (solver solver' : Solver) (r r' : Result) (hr : solveLp solver ⟨[], [], 0, 0⟩ relayStudy = .ok r)
    (hr' : solveLp solver' ⟨[], [], 0, 0⟩ straightStudy = .ok r') (ha : Answers solver relayStudy 0 Cmd.Optimal)
    (ha' : Answers solver' straightStudy 0 Cmd.Optimal) :
    cost relayStudy 0 (dispatchOf relayStudy r 0) = cost straightStudy 0 (dispatchOf straightStudy r' 0) :=
  (C146_partial relay_straight (by decide) relayStudy_ready straightStudy_ready (by decide +kernel) hr hr' ha ha').1

/-- and dispatches are carried over -/
example (D : Dispatch) (hD : Spec.Feasible straightStudy 0 D) : Spec.Feasible relayStudy 0 (viaRelay straightStudy "n" "a" "m" D) :=
  ((C146_feasible relay_straight relayStudy_ready.built straightStudy_ready.built).2 D hD).1

/-! ### A relay that gives back -/

def backCalls : List Call :=
  [.studyNetwork "n", .netNode 0 "a", .nodeConsumption 0 "load" (.num 100) (.num 10), .nodeNode 0 "m"]

/-- a load of 10 and no production; a substation that gives back -/
def backStudy : Study := made 1 1 (backCalls ++ [.nodeLink 0 "a" "m" (.num 0) (.num 10), .nodeLink 0 "m" "a" (.num 0) (.num 10)])

/-- the same with one link -/
def ringStudy : Study := made 1 1 (backCalls ++ [.nodeLink 0 "a" "a" (.num 0) (.num 10)])

theorem backStudy_ready : Ready backStudy where
  built := ⟨1, 1, _, rawCalls_of (by decide +kernel), rfl⟩
  complete := by unfold CompleteConverters; decide +kernel
  ratios := RatiosNonzero.usable (by unfold RatiosNonzero; decide +kernel)
  clean := cleanSources_of (by decide +kernel)

theorem ringStudy_ready : Ready ringStudy where
  built := ⟨1, 1, _, rawCalls_of (by decide +kernel), rfl⟩
  complete := by unfold CompleteConverters; decide +kernel
  ratios := RatiosNonzero.usable (by unfold RatiosNonzero; decide +kernel)
  clean := cleanSources_of (by decide +kernel)

theorem back_ring : Relayed backStudy ringStudy 0 "n" "a" "m" ⟨"m", number 10, number 0⟩ ⟨"a", number 10, number 0⟩
    ⟨"a", number 10, number 0⟩ :=
  relayed_of (by decide +kernel) (by decide +kernel) (by decide +kernel) (by decide +kernel) (by decide) (by decide +kernel)
    (by decide +kernel) (Built.inv ringStudy_ready.built) (by decide +kernel) (by decide +kernel) (by decide +kernel) rfl rfl
    (by decide +kernel) (by decide +kernel)

/-- nothing is served through the substation -/
def backAnswer : Var → ℚ
  | .lol .. => 10
  | _ => 0

theorem backAnswer_optimal : Answers (fun _ => backAnswer) backStudy 0 Cmd.Optimal := by
  intro steps log h
  obtain rfl := logOf_eq h
  refine ⟨Cmd.feasible_of_check (by decide +kernel), ?_⟩
  intro y hy
  have e : Cmd.objCoefs (logOf backStudy 0) = [(.lol 0 "n" "a" 0, 100), (.link 0 "n" "a" 0, 0), (.link 0 "n" "m" 0, 0)] := by
    decide +kernel
  have r1 := value_ge hy (r := .adeq 0 "n" "a") (lo := 10) (hi := 10)
    (d := [(.lol 0 "n" "a" 0, 1), (.link 0 "n" "a" 0, -1), (.link 0 "n" "m" 0, 1)]) (by decide +kernel) (by decide +kernel)
  have r2 := value_ge hy (r := .adeq 0 "n" "m") (lo := 0) (hi := 0)
    (d := [(.link 0 "n" "m" 0, -1), (.link 0 "n" "a" 0, 1)]) (by decide +kernel) (by decide +kernel)
  have e' : Cmd.objective (logOf backStudy 0) backAnswer = 1000 := by decide +kernel
  dsimp only
  rw [e']
  unfold Cmd.objective
  rw [e]
  simp only [Cmd.value, List.map_cons, List.map_nil, List.sum_cons, List.sum_nil] at r1 r2 ⊢
  linarith [r1.1, r2.1]

theorem ringAnswer_optimal : Answers (fun _ => selfAnswer) ringStudy 0 Cmd.Optimal := by
  intro steps log h
  obtain rfl := logOf_eq h
  refine ⟨Cmd.feasible_of_check (by decide +kernel), ?_⟩
  intro y hy
  have h1 := hy.1.1 (.lol 0 "n" "a" 0) 0 10 (by decide +kernel)
  have e : Cmd.objCoefs (logOf ringStudy 0) = [(.lol 0 "n" "a" 0, 100), (.link 0 "n" "a" 0, 0)] := by
    decide +kernel
  unfold Cmd.objective
  rw [e]
  simp [Cmd.value, selfAnswer]
  linarith [h1.1]

/-- C146 refuted: a load of 10 without any production costs 1000 when a substation gives back what it gets, and nothing when one
link from the node to itself stands for the way there and back -/
theorem C146_refuted : ∃ s s' g a m l₁ l₂ l solver solver' b r r', Relayed s s' 0 g a m l₁ l₂ l ∧ Ready s ∧ Ready s' ∧
    0 < s.nbScn ∧ solveLp solver b s = .ok r ∧ solveLp solver' b s' = .ok r' ∧ Answers solver s 0 Cmd.Optimal ∧
    Answers solver' s' 0 Cmd.Optimal ∧ cost s 0 (dispatchOf s r 0) = 1000 ∧ cost s' 0 (dispatchOf s' r' 0) = 0 :=
  ⟨backStudy, ringStudy, _, _, _, _, _, _, fun _ => backAnswer, fun _ => selfAnswer, ⟨[], [], 0, 0⟩, _, _, back_ring,
    backStudy_ready, ringStudy_ready, by decide +kernel, Ready.solve backStudy_ready _ _, Ready.solve ringStudy_ready _ _,
    backAnswer_optimal, ringAnswer_optimal, by decide +kernel, by decide +kernel⟩

end Hadar.Props
