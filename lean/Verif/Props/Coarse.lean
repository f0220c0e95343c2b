import Verif.Proofs.Coarse
import Verif.Props.Extension
import Verif.Props.Adequacy
import Verif.Props.Prices
import Verif.Props.Invest
import Verif.Props.Worth

/-!
# C131: putting nodes together never costs more
-/

namespace Hadar.Props

open Hadar Spec

variable {L : Layout} {s s' : Study} {solver solver' : Solver} {b b' : Benchmark} {r r' : Result} {k k' : ℕ}

/-- C131: the flows of any dispatch of the documented problem, added up where elements are put together, are a dispatch of the coarser
study; it costs no more and loses as much at each time step -/
theorem C131_flows (h : Coarser L s k s' k') (hs : Ready s) (hs' : Ready s') {D : Dispatch} (hD : Spec.Feasible s k D) :
    Spec.Feasible s' k' (D.gather L s) ∧ cost s' k' (D.gather L s) ≤ cost s k D ∧
      ∀ t, unserved s' (D.gather L s) t = unserved s D t :=
  ⟨h.feasible (Built.inv hs.built) (Built.inv hs'.built) (Ready.dest hs) (Ready.dest hs') hD,
    h.cost (Built.inv hs'.built) hD.bounds, fun t => h.unserved (Built.inv hs'.built) D t⟩

/-- C131: the result of the coarser study costs no more than any result of the study itself: it bounds it from below -/
theorem C131 (h : Coarser L s k s' k') (hs : Ready s) (hs' : Ready s') (hself : NoSelfLink s) (h1 : OneStorage s)
    (hself' : NoSelfLink s') (hk : k < s.nbScn) (hk' : k' < s'.nbScn) (hr : solveLp solver b s = .ok r)
    (hr' : solveLp solver' b' s' = .ok r') (ha : Answers solver s k Cmd.Feasible) (ha' : Answers solver' s' k' Cmd.Optimal) :
    cost s' k' (dispatchOf s' r' k') ≤ cost s k (dispatchOf s r k) := by
  obtain ⟨hf, hc, _⟩ := C131_flows h hs hs' (solved_feasible hs hself h1 hr hk ha)
  obtain rfl := Ready.result hs' hr'
  exact ((optimal_result (Built.inv hs'.built) hk' _ b' (Ready.answer hs' hk' ha')).2 _ (code_of_feasible hself' hf)).trans hc

/-- C131: what the study can serve, the coarser study can: a result of the study that loses nothing gives a dispatch of the coarser study
that loses nothing -/
theorem C131_served (h : Coarser L s k s' k') (hs : Ready s) (hs' : Ready s') (hself : NoSelfLink s) (h1 : OneStorage s)
    (hk : k < s.nbScn) (hr : solveLp solver b s = .ok r) (ha : Answers solver s k Cmd.Feasible)
    (h0 : ∀ t < s.horizon, unserved s (dispatchOf s r k) t = 0) :
    ∃ D, Spec.Feasible s' k' D ∧ ∀ t < s'.horizon, unserved s' D t = 0 := by
  obtain ⟨hf, _, hu⟩ := C131_flows h hs hs' (solved_feasible hs hself h1 hr hk ha)
  exact ⟨_, hf, fun t ht => (hu t).trans (h0 t (h.horizon ▸ ht))⟩

/-! ### A concrete case -/

/-- the conditions of `Coarser` on nodes, over the lists of the study -/
structure CoarserNodes (L : Layout) (s : Study) (k : ℕ) (s' : Study) (k' : ℕ) : Prop where
  nodes : ∀ p ∈ s.networks, ∀ q ∈ p.2.nodes, ∃ p' ∈ s'.networks, p'.1 = (L.place (p.1, q.1)).1 ∧
    (L.place (p.1, q.1)).2 ∈ p'.2.nodes.map Prod.fst
  consumptions : ∀ p ∈ s.networks, ∀ q ∈ p.2.nodes, ∀ z ∈ q.2.consumptions.zipIdx,
    ((newNode L.place s' p.1 q.1).consumptions[L.consumption p.1 q.1 z.2]?.any fun b =>
      decide (∀ t < s.horizon, val b.cost k' t ≤ val z.1.cost k t)) = true
  asked : ∀ p' ∈ s'.networks, ∀ q' ∈ p'.2.nodes, ∀ z ∈ q'.2.consumptions.zipIdx, ∀ t < s.horizon,
    val z.1.quantity k' t = gathered L.place s InputNode.consumptions keepAll L.consumption (p'.1, q'.1) z.2
      fun _ _ a _ => val a.quantity k t
  productions : ∀ p ∈ s.networks, ∀ q ∈ p.2.nodes, ∀ z ∈ q.2.productions.zipIdx,
    ((newNode L.place s' p.1 q.1).productions[L.production p.1 q.1 z.2]?.any fun b =>
      decide (∀ t < s.horizon, val b.cost k' t ≤ val z.1.cost k t)) = true
  available : ∀ p' ∈ s'.networks, ∀ q' ∈ p'.2.nodes, ∀ z ∈ q'.2.productions.zipIdx, ∀ t < s.horizon,
    gathered L.place s InputNode.productions keepAll L.production (p'.1, q'.1) z.2 (fun _ _ a _ => val a.quantity k t) ≤
      val z.1.quantity k' t
  storages : ∀ p ∈ s.networks, ∀ q ∈ p.2.nodes, ∀ z ∈ q.2.storages.zipIdx,
    ((newNode L.place s' p.1 q.1).storages[L.storage p.1 q.1 z.2]?.any fun b =>
      decide (∀ t < s.horizon, val b.cost k' t ≤ val z.1.cost k t ∧ val b.eff k' t = val z.1.eff k t)) = true
  start : ∀ p' ∈ s'.networks, ∀ q' ∈ p'.2.nodes, ∀ z ∈ q'.2.storages.zipIdx,
    z.1.initCapacity = gathered L.place s InputNode.storages keepAll L.storage (p'.1, q'.1) z.2 fun _ _ a _ => a.initCapacity
  room : ∀ p' ∈ s'.networks, ∀ q' ∈ p'.2.nodes, ∀ z ∈ q'.2.storages.zipIdx, ∀ t < s.horizon,
    gathered L.place s InputNode.storages keepAll L.storage (p'.1, q'.1) z.2 (fun _ _ a _ => val a.capacity k t) ≤
      val z.1.capacity k' t ∧
    gathered L.place s InputNode.storages keepAll L.storage (p'.1, q'.1) z.2 (fun _ _ a _ => val a.flowIn k t) ≤ val z.1.flowIn k' t ∧
    gathered L.place s InputNode.storages keepAll L.storage (p'.1, q'.1) z.2 (fun _ _ a _ => val a.flowOut k t) ≤ val z.1.flowOut k' t
  inside : ∀ p ∈ s.networks, ∀ q ∈ p.2.nodes, ∀ a ∈ q.2.links, crosses L.place p.1 q.1 a = false → ∀ t < s.horizon, 0 ≤ val a.cost k t
  links : ∀ p ∈ s.networks, ∀ q ∈ p.2.nodes, ∀ z ∈ q.2.links.zipIdx, crosses L.place p.1 q.1 z.1 = true →
    (L.place (p.1, z.1.dest)).1 = (L.place (p.1, q.1)).1 ∧
    ((newNode L.place s' p.1 q.1).links[L.link p.1 q.1 z.2]?.any fun b => decide (b.dest = (L.place (p.1, z.1.dest)).2 ∧
      ∀ t < s.horizon, val b.cost k' t ≤ val z.1.cost k t)) = true
  between : ∀ p' ∈ s'.networks, ∀ q' ∈ p'.2.nodes, ∀ z ∈ q'.2.links.zipIdx, ∀ t < s.horizon,
    gathered L.place s InputNode.links (crosses L.place) L.link (p'.1, q'.1) z.2 (fun _ _ a _ => val a.quantity k t) ≤
      val z.1.quantity k' t

theorem any_some {α : Type} {o : Option α} {p : α → Prop} [DecidablePred p] (h : (o.any fun b => decide (p b)) = true) :
    ∃ b, o = some b ∧ p b := by
  cases o with
  | none => simp at h
  | some b => exact ⟨b, rfl, by simpa using h⟩

theorem coarser_of (hh : s'.horizon = s.horizon) (h : CoarserNodes L s k s' k')
    (hc : List.Forall₂ (fun p q => p.1 = q.1 ∧ CoarseConverter L.place s.horizon k k' p.2 q.2) s.converters s'.converters) :
    Coarser L s k s' k' where
  horizon := hh
  nodes := by
    rintro g d n ⟨net, hg, hd⟩
    obtain ⟨⟨g', net'⟩, hm, e, hm'⟩ := h.nodes _ hg _ hd
    obtain ⟨⟨d', n'⟩, hm', e'⟩ := List.mem_map.mp hm'
    exact ⟨n', net', by rw [← e]; exact hm, by rw [← e']; exact hm'⟩
  consumptions := by
    rintro g d n ⟨net, hg, hd⟩ i a ha
    exact any_some (h.consumptions _ hg _ hd (a, i) (mem_zipIdx_iff.mpr ha))
  asked := by
    rintro g d n ⟨net, hg, hd⟩ i a ha
    exact h.asked _ hg _ hd (a, i) (mem_zipIdx_iff.mpr ha)
  productions := by
    rintro g d n ⟨net, hg, hd⟩ i a ha
    exact any_some (h.productions _ hg _ hd (a, i) (mem_zipIdx_iff.mpr ha))
  available := by
    rintro g d n ⟨net, hg, hd⟩ i a ha
    exact h.available _ hg _ hd (a, i) (mem_zipIdx_iff.mpr ha)
  storages := by
    rintro g d n ⟨net, hg, hd⟩ i a ha
    exact any_some (h.storages _ hg _ hd (a, i) (mem_zipIdx_iff.mpr ha))
  start := by
    rintro g d n ⟨net, hg, hd⟩ i a ha
    exact h.start _ hg _ hd (a, i) (mem_zipIdx_iff.mpr ha)
  room := by
    rintro g d n ⟨net, hg, hd⟩ i a ha
    exact h.room _ hg _ hd (a, i) (mem_zipIdx_iff.mpr ha)
  inside := by
    rintro g d n ⟨net, hg, hd⟩ a ha
    exact h.inside _ hg _ hd a ha
  links := by
    rintro g d n ⟨net, hg, hd⟩ i a ha hx
    obtain ⟨e, hb⟩ := h.links _ hg _ hd (a, i) (mem_zipIdx_iff.mpr ha) hx
    exact ⟨e, any_some hb⟩
  between := by
    rintro g d n ⟨net, hg, hd⟩ i a ha
    exact h.between _ hg _ hd (a, i) (mem_zipIdx_iff.mpr ha)
  converters := hc

/-- three nodes, two time steps: `a` has cheap energy, `b` dear energy, each one a storage; few links to `c`, and a converter from `a` -/
def fineCalls : List Call :=
  [.studyNetwork "elec", .netNode 0 "c", .nodeConsumption 0 "load" (.num 80) (.num 3), .netNode 0 "a",
   .nodeConsumption 0 "load" (.num 100) (.num 10), .nodeProduction 0 "nuke" (.num 2) (.num 20),
   .nodeStorage 0 ⟨"cell", .num 4, .num 2, .num 2, .num 0, 1, .num (1/2)⟩, .nodeToConverter 0 "conv" (.num (1/2)),
   .nodeConverter 0 "conv" "elec" "c" (.num 1) (.num 3), .netNode 0 "b",
   .nodeConsumption 0 "load" (.num 100) (.array ⟨[2], [10, 8], rfl⟩), .nodeProduction 0 "fuel" (.num 50) (.num 10),
   .nodeStorage 0 ⟨"cell", .num 6, .num 3, .num 3, .num 0, 2, .num (1/2)⟩,
   .netLink 0 "a" "b" (.num 1) (.num 5), .netLink 0 "a" "c" (.num 1) (.num 1), .netLink 0 "b" "c" (.num 2) (.num 2)]

def fineStudy : Study := made 2 1 fineCalls

/-- `a` and `b` put together -/
def coarseCalls : List Call :=
  [.studyNetwork "elec", .netNode 0 "ab", .nodeConsumption 0 "load" (.num 100) (.array ⟨[2], [20, 18], rfl⟩),
   .nodeProduction 0 "nuke" (.num 2) (.num 20), .nodeProduction 0 "fuel" (.num 50) (.num 10),
   .nodeStorage 0 ⟨"cell", .num 10, .num 5, .num 5, .num 0, 3, .num (1/2)⟩, .netNode 0 "c",
   .nodeConsumption 0 "load" (.num 80) (.num 3), .netLink 0 "ab" "c" (.num 1) (.num 3), .netNode 0 "ab",
   .nodeToConverter 0 "conv" (.num (1/2)), .nodeConverter 0 "conv" "elec" "c" (.num 1) (.num 3)]

def coarseStudy : Study := made 2 1 coarseCalls

def coarseLayout : Layout where
  place x := (x.1, if x.2 = "c" then "c" else "ab")
  consumption _ _ _ := 0
  production _ d i := if d = "b" then 1 else i
  storage _ _ _ := 0
  link _ _ _ := 0

theorem fineStudy_ready : Ready fineStudy where
  built := ⟨2, 1, _, rawCalls_of (by decide +kernel), rfl⟩
  complete := by unfold CompleteConverters; decide +kernel
  ratios := RatiosNonzero.usable (by unfold RatiosNonzero; decide +kernel)
  clean := cleanSources_of (by decide +kernel)

theorem coarseStudy_ready : Ready coarseStudy where
  built := ⟨2, 1, _, rawCalls_of (by decide +kernel), rfl⟩
  complete := by unfold CompleteConverters; decide +kernel
  ratios := RatiosNonzero.usable (by unfold RatiosNonzero; decide +kernel)
  clean := cleanSources_of (by decide +kernel)

theorem coarse_nodes : CoarserNodes coarseLayout fineStudy 0 coarseStudy 0 where
  nodes := by decide +kernel
  consumptions := by decide +kernel
  asked := by decide +kernel
  productions := by decide +kernel
  available := by decide +kernel
  storages := by decide +kernel
  start := by decide +kernel
  room := by decide +kernel
  inside := by decide +kernel
  links := by decide +kernel
  between := by decide +kernel

theorem forall₂_of_zip {α β : Type} {R : α → β → Prop} {l : List α} {l' : List β} (hl : l.length = l'.length)
    (h : ∀ z ∈ l.zip l', R z.1 z.2) : List.Forall₂ R l l' :=
  List.forall₂_iff_zip.mpr ⟨hl, fun hz => h _ hz⟩

theorem coarse_converters : ∀ z ∈ fineStudy.converters.zip coarseStudy.converters, z.1.1 = z.2.1 ∧
    z.1.2.srcRatios.length = z.2.2.srcRatios.length ∧
    (∀ a ∈ z.1.2.srcRatios.zip z.2.2.srcRatios, a.2.1 = coarseLayout.place.key a.1.1 ∧
      ∀ t < fineStudy.horizon, val a.2.2 0 t = val a.1.2 0 t) ∧
    z.2.2.destNetwork = (coarseLayout.place (z.1.2.destNetwork, z.1.2.destNode)).1 ∧
    z.2.2.destNode = (coarseLayout.place (z.1.2.destNetwork, z.1.2.destNode)).2 ∧
    (∀ t < fineStudy.horizon, fval z.2.2.cost 0 t ≤ fval z.1.2.cost 0 t) ∧
    ∀ t < fineStudy.horizon, fval z.2.2.max 0 t = fval z.1.2.max 0 t := by decide +kernel

theorem coarse_of_fine : Coarser coarseLayout fineStudy 0 coarseStudy 0 := by
  refine coarser_of (by decide +kernel) coarse_nodes (forall₂_of_zip (by decide +kernel) fun z hz => ?_)
  obtain ⟨e, h1, h2, h3, h4, h5, h6⟩ := coarse_converters z hz
  exact ⟨e, forall₂_of_zip h1 h2, h3, h4, h5, h6⟩

/-- the storage of `b` is emptied at first, that of `a` is filled, then emptied -/
def fineAnswer : Var → ℚ
  | .prod 0 _ "a" _ => 19
  | .prod 1 _ "a" _ => 15
  | .prod _ _ "b" _ => 9/2
  | .fout 0 _ "b" _ => 2
  | .fin 0 _ "a" _ => 2
  | .cap 0 _ "a" _ => 2
  | .fout 1 _ "a" _ => 2
  | .link _ _ "a" 0 => 5
  | .link _ _ "a" 1 => 1
  | .link _ _ "b" _ => 3/2
  | .convSrc _ _ _ => 1
  | .convDest _ _ => 1/2
  | _ => 0

theorem fineAnswer_feasible : Answers (fun _ => fineAnswer) fineStudy 0 Cmd.Feasible := feasibleAnswer_of (by decide +kernel)

theorem fine_solved : solveLp (fun _ => fineAnswer) ⟨[], [], 0, 0⟩ fineStudy =
    .ok (resultAll fineStudy (valsOf (fun _ => fineAnswer) fineStudy) ⟨[], [], 0, 0⟩) :=
  Ready.solve fineStudy_ready (fun _ => fineAnswer) _

/-- the hypotheses are met: whatever the optimal solver, the coarser study costs no more than this result -/
example (solver' : Solver) (r' : Result) (hr' : solveLp solver' ⟨[], [], 0, 0⟩ coarseStudy = .ok r')
    (ha' : Answers solver' coarseStudy 0 Cmd.Optimal) :
    cost coarseStudy 0 (dispatchOf coarseStudy r' 0) ≤
      cost fineStudy 0 (dispatchOf fineStudy (resultAll fineStudy (valsOf (fun _ => fineAnswer) fineStudy) ⟨[], [], 0, 0⟩) 0) :=
  C131 coarse_of_fine fineStudy_ready coarseStudy_ready (noSelf_of (by decide +kernel)) (oneStorage_of (by decide +kernel))
    (noSelf_of (by decide +kernel)) (by decide +kernel) (by decide +kernel) fine_solved hr' fineAnswer_feasible ha'

/-- this result serves everything, so that the coarser study can be served -/
example : ∃ D, Spec.Feasible coarseStudy 0 D ∧ ∀ t < coarseStudy.horizon, unserved coarseStudy D t = 0 :=
  C131_served coarse_of_fine fineStudy_ready coarseStudy_ready (noSelf_of (by decide +kernel)) (oneStorage_of (by decide +kernel))
    (by decide +kernel) fine_solved fineAnswer_feasible (by decide +kernel)

example := C131_flows coarse_of_fine fineStudy_ready coarseStudy_ready (solved_feasible fineStudy_ready (noSelf_of (by decide +kernel))
  (oneStorage_of (by decide +kernel)) fine_solved (by decide +kernel) fineAnswer_feasible)

/-- what is gathered: the storages of `a` and `b` hold 2 in all at the end of the first step, 3/2 + 1 goes to `c` -/
example : ((ofVars fineAnswer).gather coarseLayout fineStudy).cap "elec" "ab" 0 0 = 2 ∧
    ((ofVars fineAnswer).gather coarseLayout fineStudy).link "elec" "ab" 0 0 = 5/2 ∧
    ((ofVars fineAnswer).gather coarseLayout fineStudy).convSrc "conv" ("elec", "ab") 0 = 1 := by decide +kernel

/-- a dispatch of the coarser study: without the limit between `a` and `b`, little dear energy is used -/
def coarseAnswer : Var → ℚ
  | .prod _ _ "ab" 0 => 20
  | .prod 1 _ "ab" 1 => 1
  | .fout 0 _ "ab" _ => 3
  | .link _ _ "ab" _ => 3
  | _ => 0

theorem coarseAnswer_feasible : Answers (fun _ => coarseAnswer) coarseStudy 0 Cmd.Feasible := feasibleAnswer_of (by decide +kernel)

/-- energy is dear at `b` -/
def finePrices : Prices where
  node _ d _ := if d = "b" then 50 else 2
  stored _ d _ _ := if d = "b" then 50 else 0
  used _ _ _ := 0

/-- the coarser study can cost strictly less: what this dispatch costs is less than what all dispatches of the study cost -/
example {D : Dispatch} (hD : Spec.Feasible fineStudy 0 D) : cost coarseStudy 0 (ofVars coarseAnswer) < cost fineStudy 0 D :=
  lt_of_lt_of_le (by decide +kernel) (C81_lower (P := finePrices) fineStudy_ready
    (fun p hp g d r hr t ht h0 => by simp only [finePrices]; split_ifs <;> norm_num) hD)

end Hadar.Props
