import Verif.Proofs.Clearing
import Verif.Props.LPExamples

/-!
# C104: the merit order as a formula
-/

namespace Hadar.Props

open Hadar Spec

variable {s : Study} {solver : Solver} {b : Benchmark} {r : Result} {k : ℕ} {g d : String} {n : InputNode} {t : ℕ}

/-- C104: the productions of a node that cost `c` produce what is asked by consumptions that cost more, less what the node receives and what
cheaper productions can produce, as far as they can -/
theorem C104_productions (hs : Ready s) (hself : NoSelfLink s) (hk : k < s.nbScn) (hr : solveLp solver b s = .ok r)
    (ha : Answers solver s k Cmd.Optimal) (hn : HasNode s g d n) (ht : t < s.horizon) (c : ℚ)
    (hc : ∀ q ∈ n.consumptions, val q.cost k t ≠ c) :
    producedAt k (dispatchOf s r k) g d n t c = within (supply k n t (· = c))
      (demand k n t (c < ·) - received s (dispatchOf s r k) g d n t - supply k n t (· < c)) := by
  have hb := C19_balance_partial hs hself hr hk (fun st l h => (ha st l h).1) g d n hn t ht
  obtain rfl := Ready.result hs hr
  have h := optimal_result (Built.inv hs.built) hk _ b (Ready.answer hs hk ha)
  exact clearing_prod (Built.inv hs.built) h.1 h.2 hn ht hb c hc

/-- C104: the consumptions of a node that cost `c` are given what cheaper productions can produce and what the node receives, less what
consumptions that cost more ask for, as far as they ask -/
theorem C104_consumptions (hs : Ready s) (hself : NoSelfLink s) (hk : k < s.nbScn) (hr : solveLp solver b s = .ok r)
    (ha : Answers solver s k Cmd.Optimal) (hn : HasNode s g d n) (ht : t < s.horizon) (c : ℚ)
    (hc : ∀ q ∈ n.productions, val q.cost k t ≠ c) :
    servedAt k (dispatchOf s r k) g d n t c = within (demand k n t (· = c))
      (supply k n t (· < c) + received s (dispatchOf s r k) g d n t - demand k n t (c < ·)) := by
  have hb := C19_balance_partial hs hself hr hk (fun st l h => (ha st l h).1) g d n hn t ht
  obtain rfl := Ready.result hs hr
  have h := optimal_result (Built.inv hs.built) hk _ b (Ready.answer hs hk ha)
  exact clearing_cons (Built.inv hs.built) h.1 h.2 hn ht hb c hc

/-- C104, the quantity of a production in the result: no other production and no consumption of the node has its cost -/
theorem C104_production (hs : Ready s) (hself : NoSelfLink s) (hk : k < s.nbScn) (hr : solveLp solver b s = .ok r)
    (ha : Answers solver s k Cmd.Optimal) (hn : HasNode s g d n) (ht : t < s.horizon) {i : ℕ} {p : Production}
    (hp : n.productions[i]? = some p) (h1 : ∀ j q, n.productions[j]? = some q → val q.cost k t = val p.cost k t → j = i)
    (hc : ∀ q ∈ n.consumptions, val q.cost k t ≠ val p.cost k t) :
    cellAt (outNode r g d).productions i (·.quantity) k t = within (val p.quantity k t)
      (demand k n t (val p.cost k t < ·) - received s (dispatchOf s r k) g d n t - supply k n t (· < val p.cost k t)) := by
  have := C104_productions hs hself hk hr ha hn ht _ hc
  have e1 : producedAt k (dispatchOf s r k) g d n t (val p.cost k t) = (dispatchOf s r k).prod g d i t :=
    someOf_single (κ := fun q : Production => val q.cost k t) (which := (· = val p.cost k t)) hp rfl (fun q j hq h => h1 j q hq h) _
  have e2 : supply k n t (· = val p.cost k t) = val p.quantity k t := by
    unfold supply
    rw [← someOf_quantity n.productions (fun q => val q.cost k t) (fun q => val q.quantity k t) (· = val p.cost k t)]
    exact someOf_single (κ := fun q : Production => val q.cost k t) (which := (· = val p.cost k t)) hp rfl (fun q j hq h => h1 j q hq h) _
  rw [e1, e2] at this
  exact this

/-- C104, the quantity given to a consumption in the result: no other consumption and no production of the node has its cost -/
theorem C104_consumption (hs : Ready s) (hself : NoSelfLink s) (hk : k < s.nbScn) (hr : solveLp solver b s = .ok r)
    (ha : Answers solver s k Cmd.Optimal) (hn : HasNode s g d n) (ht : t < s.horizon) {i : ℕ} {p : Consumption}
    (hp : n.consumptions[i]? = some p) (h1 : ∀ j q, n.consumptions[j]? = some q → val q.cost k t = val p.cost k t → j = i)
    (hc : ∀ q ∈ n.productions, val q.cost k t ≠ val p.cost k t) :
    cellAt (outNode r g d).consumptions i (·.quantity) k t = within (val p.quantity k t)
      (supply k n t (· < val p.cost k t) + received s (dispatchOf s r k) g d n t - demand k n t (val p.cost k t < ·)) := by
  have := C104_consumptions hs hself hk hr ha hn ht _ hc
  have e1 : servedAt k (dispatchOf s r k) g d n t (val p.cost k t) = val p.quantity k t - (dispatchOf s r k).lol g d i t :=
    someOf_single (κ := fun q : Consumption => val q.cost k t) (which := (· = val p.cost k t)) hp rfl (fun q j hq h => h1 j q hq h)
      fun q j => val q.quantity k t - (dispatchOf s r k).lol g d j t
  have e2 : demand k n t (· = val p.cost k t) = val p.quantity k t := by
    unfold demand
    rw [← someOf_quantity n.consumptions (fun q => val q.cost k t) (fun q => val q.quantity k t) (· = val p.cost k t)]
    exact someOf_single (κ := fun q : Consumption => val q.cost k t) (which := (· = val p.cost k t)) hp rfl (fun q j hq h => h1 j q hq h) _
  have e3 : (dispatchOf s r k).lol g d i t = val p.quantity k t - cellAt (outNode r g d).consumptions i (·.quantity) k t := by
    have : (inNode s g d).consumptions[i]? = some p := by rw [inNode_eq (Built.inv hs.built) hn]; exact hp
    simp only [dispatchOf, this]
  rw [e1, e2, e3] at this
  linarith

/-- C104: an isolated node receives nothing, what its elements do follows from its own data -/
theorem C104_isolated (h : Isolated s g d n) (D : Dispatch) : received s D g d n t = 0 := by
  unfold received imports fromConverters toConverters
  have e1 : (sumL (s.networks.filter (·.1 = g)) fun p => sumL p.2.nodes fun q =>
      sumI q.2.links fun l i => if l.dest = d then D.link g q.1 i t else 0) = 0 := by
    refine sumL_eq_zero fun p hp => sumL_eq_zero fun q hq => ?_
    rw [sumI_eq]
    refine sumL_eq_zero fun l hl => ?_
    rw [List.mem_filter] at hp
    have hg : p.1 = g := by simpa using hp.2
    exact if_neg (h.arrivals q.1 q.2 ⟨p.2, by rw [← hg]; exact hp.1, hq⟩ _ (List.fst_mem_of_mem_zipIdx hl))
  have e2 : (sumL s.converters fun p => if p.2.destNetwork = g ∧ p.2.destNode = d then D.convDest p.1 t else 0) = 0 :=
    sumL_eq_zero fun p hp => if_neg (h.converters p hp).1
  have e3 : (sumL s.converters fun p => sumL p.2.srcRatios fun q => if q.1 = [g, d] then D.convSrc p.1 (g, d) t else 0) = 0 :=
    sumL_eq_zero fun p hp => sumL_eq_zero fun q hq => if_neg fun e => (h.converters p hp).2 (List.mem_map.mpr ⟨q, hq, e⟩)
  rw [e1, e2, e3, h.storages, h.links]
  simp [sumI]

/-! ### Concrete cases -/

private def nukes : Production := ⟨"nuke", ⟨.scalar 20, 1, 1⟩, ⟨.scalar 15, 1, 1⟩⟩
private def loads : Consumption := ⟨⟨.scalar 100, 1, 1⟩, ⟨.scalar 10, 1, 1⟩, "load"⟩

/-- `nuke` serves the load of 10 and what node `a` sends to `b` -/
example (r : Result) (hr : solveLp (fun _ => lpAnswer) ⟨[], [], 0, 0⟩ lpStudy = .ok r) :
    cellAt (outNode r "elec" "a").productions 0 (·.quantity) 0 0 = within 15 (10 - -1 - 0) := by
  have := C104_production (i := 0) (p := nukes) lpStudy_ready lpStudy_noSelf (by decide +kernel) hr lpAnswer_optimal
    (hasNode_inNode (s := lpStudy) (g := "elec") (d := "a") (by decide +kernel)) (t := 0) (by decide +kernel) (by decide +kernel)
    (fun j q hq => by
      have : ∀ p ∈ (inNode lpStudy "elec" "a").productions.zipIdx, val p.1.cost 0 0 = 20 → p.2 = 0 := by decide +kernel
      exact this (q, j) (mem_zipIdx_iff.mpr hq)) (by decide +kernel)
  obtain rfl := Ready.result lpStudy_ready hr
  rw [this]
  decide +kernel

example (r : Result) (hr : solveLp (fun _ => lpAnswer) ⟨[], [], 0, 0⟩ lpStudy = .ok r) :
    producedAt 0 (dispatchOf lpStudy r 0) "elec" "a" (inNode lpStudy "elec" "a") 0 70 = within 5 (10 - -1 - 15) := by
  have := C104_productions lpStudy_ready lpStudy_noSelf (by decide +kernel) hr lpAnswer_optimal
    (hasNode_inNode (s := lpStudy) (g := "elec") (d := "a") (by decide +kernel)) (t := 0) (by decide +kernel) 70 (by decide +kernel)
  obtain rfl := Ready.result lpStudy_ready hr
  rw [this]
  decide +kernel

/-- the load is served by the productions less what node `a` sends to `b` -/
example (r : Result) (hr : solveLp (fun _ => lpAnswer) ⟨[], [], 0, 0⟩ lpStudy = .ok r) :
    cellAt (outNode r "elec" "a").consumptions 0 (·.quantity) 0 0 = within 10 (20 + -1 - 0) := by
  have := C104_consumption (i := 0) (p := loads) lpStudy_ready lpStudy_noSelf (by decide +kernel) hr lpAnswer_optimal
    (hasNode_inNode (s := lpStudy) (g := "elec") (d := "a") (by decide +kernel)) (t := 0) (by decide +kernel) (by decide +kernel)
    (fun j q hq => by
      have : ∀ p ∈ (inNode lpStudy "elec" "a").consumptions.zipIdx, val p.1.cost 0 0 = 100 → p.2 = 0 := by decide +kernel
      exact this (q, j) (mem_zipIdx_iff.mpr hq)) (by decide +kernel)
  obtain rfl := Ready.result lpStudy_ready hr
  rw [this]
  decide +kernel

example (r : Result) (hr : solveLp (fun _ => lpAnswer) ⟨[], [], 0, 0⟩ lpStudy = .ok r) :
    servedAt 0 (dispatchOf lpStudy r 0) "elec" "b" (inNode lpStudy "elec" "b") 0 100 = within 6 (0 + 6 - 0) := by
  have := C104_consumptions lpStudy_ready lpStudy_noSelf (by decide +kernel) hr lpAnswer_optimal
    (hasNode_inNode (s := lpStudy) (g := "elec") (d := "b") (by decide +kernel)) (t := 0) (by decide +kernel) 100 (by decide +kernel)
  obtain rfl := Ready.result lpStudy_ready hr
  rw [this]
  decide +kernel

def aloneStudy : Study := ((World.start 1 1).run [.studyNetwork "n", .netNode 0 "a", .nodeConsumption 0 "load" (.num 100) (.num 10),
  .nodeProduction 0 "nuke" (.num 20) (.num 4), .netNode 0 "b", .netNode 0 "c", .netLink 0 "b" "c" (.num 1) (.num 4)]).study

/-- node `a` is isolated -/
theorem alone_isolated : Isolated aloneStudy "n" "a" (inNode aloneStudy "n" "a") where
  storages := by decide +kernel
  links := by decide +kernel
  arrivals := by
    rintro d' n' ⟨net, hg, hd⟩ l hl
    have : ∀ p ∈ aloneStudy.networks, ∀ q ∈ p.2.nodes, ∀ l ∈ q.2.links, l.dest ≠ "a" := by decide +kernel
    exact this _ hg _ hd l hl
  converters := by decide +kernel

example (D : Dispatch) : received aloneStudy D "n" "a" (inNode aloneStudy "n" "a") 0 = 0 := C104_isolated alone_isolated D

end Hadar.Props
