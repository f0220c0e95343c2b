import Verif.Proofs.Twins
import Verif.Props.Whole
import Verif.Props.Order
import Verif.Props.Margin

/-!
# C145: places that are alike
-/

namespace Hadar.Props

open Hadar Spec

variable {ρ : Names} {s : Study} {k : ℕ} {solver : Solver} {b : Benchmark} {r : Result} {D : Dispatch} {P : Prices}

/-- C145: when each place has a twin, doing at each place what a dispatch of least cost does at the twin place is of least cost -/
theorem C145_twin (h : ρ.Ok) (ha : SelfAlike ρ s) (hb : Built s) (hD : LeastCost s k D) :
    ∃ D', TwinFlows ρ s D D' ∧ LeastCost s k D' ∧ cost s k D' = cost s k D := by
  refine ⟨twinOf ρ s D, twinOf_flows h hb, ⟨twinOf_feasible h ha hb hD.1, fun E hE => ?_⟩, twinOf_cost h ha hb⟩
  rw [twinOf_cost h ha hb]
  exact hD.2 E hE

/-- C145: when places are alike by pairs, some dispatch of least cost does the same at twin places -/
theorem C145 (h : ρ.Ok) (hp : ρ.Pairs) (ha : SelfAlike ρ s) (hb : Built s) (hD : LeastCost s k D) :
    ∃ E, EvenHanded ρ s E ∧ LeastCost s k E ∧ cost s k E = cost s k D := by
  have hc : cost s k (D.blend (1 / 2) (1 / 2) (twinOf ρ s D)) = cost s k D := by
    rw [blend_cost (sameShape_refl s k) (sameShape_refl s k), twinOf_cost h ha hb]
    ring
  refine ⟨_, half_even h hp hb, ⟨half_feasible hD.1 (twinOf_feasible h ha hb hD.1), fun F hF => ?_⟩, hc⟩
  rw [hc]
  exact hD.2 F hF

/-- what `solve_lp` gives is of least cost, without link from a node to itself and with at most one storage per node -/
theorem result_least (hs : Ready s) (hself : NoSelfLink s) (h1 : OneStorage s) (hk : k < s.nbScn) (hr : solveLp solver b s = .ok r)
    (ho : Answers solver s k Cmd.Optimal) : LeastCost s k (dispatchOf s r k) := by
  obtain rfl := Ready.result hs hr
  have hi := Built.inv hs.built
  have h2 := optimal_result hi hk _ b (Ready.answer hs hk ho)
  exact ⟨feasible_of_code hself h1 h2.1, fun E hE => h2.2 E (code_of_feasible hself hE)⟩

/-- C145 (partial): a result of least cost does the same with twin elements that would earn or lose with its prices. Missing: elements that
break even, see `C145_refuted`; links from a node to itself and several storages at a node, for which results are not of least cost (C22). -/
theorem C145_margin_partial (h : ρ.Ok) (ha : SelfAlike ρ s) (hs : Ready s) (hself : NoSelfLink s) (h1 : OneStorage s) (hk : k < s.nbScn)
    (hr : solveLp solver b s = .ok r) (ho : Answers solver s k Cmd.Optimal) (he : Equilibrium s k (dispatchOf s r k) P)
    {g d : String} {n n' : InputNode} (hn : HasNode s g d n) (hn' : HasNode s (ρ.net g) (ρ.node d) n') {t : ℕ} (ht : t < s.horizon) :
    (∀ (i j : ℕ) c, n.productions[i]? = some c → n'.productions[j]? = some { c with name := ρ.elem c.name } →
      val c.cost k t ≠ P.node g d t → (dispatchOf s r k).prod g d i t = (dispatchOf s r k).prod (ρ.net g) (ρ.node d) j t) ∧
    (∀ (i j : ℕ) c, n.consumptions[i]? = some c → n'.consumptions[j]? = some { c with name := ρ.elem c.name } →
      val c.cost k t ≠ P.node g d t → (dispatchOf s r k).lol g d i t = (dispatchOf s r k).lol (ρ.net g) (ρ.node d) j t) ∧
    (∀ (i j : ℕ) l, n.links[i]? = some l → n'.links[j]? = some { l with dest := ρ.node l.dest } →
      P.node g d t + val l.cost k t ≠ P.node g l.dest t →
      (dispatchOf s r k).link g d i t = (dispatchOf s r k).link (ρ.net g) (ρ.node d) j t) := by
  have hD := result_least hs hself h1 hk hr ho
  obtain ⟨D', hf, hD', hc⟩ := C145_twin h ha hs.built hD
  have he' := equilibrium_of_cost (Built.inv hs.built) (Ready.dest hs) hD.1 he hD'.1 hc
  have hag := agree_of_equilibrium he he'
  refine ⟨fun i j c hc hc' hne => ?_, fun i j c hc hc' hne => ?_, fun i j l hl hl' hne => ?_⟩
  · rw [hag.productions g d n hn i c hc t ht hne, hf.productions g d n n' hn hn' i j c hc hc' t ht]
  · rw [hag.consumptions g d n hn i c hc t ht hne, hf.consumptions g d n n' hn hn' i j c hc hc' t ht]
  · rw [hag.links g d n hn i l hl t ht hne, hf.links g d n n' hn hn' i j l hl hl' t ht]

/-- C145 (partial): when only one dispatch is of least cost, the result does the same at twin places. Missing: as above. -/
theorem C145_unique_partial (h : ρ.Ok) (ha : SelfAlike ρ s) (hs : Ready s) (hself : NoSelfLink s) (h1 : OneStorage s) (hk : k < s.nbScn)
    (hr : solveLp solver b s = .ok r) (ho : Answers solver s k Cmd.Optimal)
    (hu : ∀ E, LeastCost s k E → SameFlows s (dispatchOf s r k) E) : EvenHanded ρ s (dispatchOf s r k) := by
  obtain ⟨D', hf, hD', -⟩ := C145_twin h ha hs.built (result_least hs hself h1 hk hr ho)
  have hsame := hu D' hD'
  have hlt : ∀ {α : Type} {l : List α} {i : ℕ} {a : α}, l[i]? = some a → i < l.length := fun h => (List.getElem?_eq_some_iff.mp h).1
  refine ⟨?_, ?_, ?_, ?_, ?_, ?_⟩
  · intro g d n n' hn hn' i j c hc hc' t ht
    rw [hsame.lol g d n hn i (hlt hc) t ht, hf.consumptions g d n n' hn hn' i j c hc hc' t ht]
  · intro g d n n' hn hn' i j c hc hc' t ht
    rw [hsame.prod g d n hn i (hlt hc) t ht, hf.productions g d n n' hn hn' i j c hc hc' t ht]
  · intro g d n n' hn hn' i j c hc hc' t ht
    rw [hsame.cap g d n hn i (hlt hc) t ht, hsame.fin g d n hn i (hlt hc) t ht, hsame.fout g d n hn i (hlt hc) t ht]
    exact hf.storages g d n n' hn hn' i j c hc hc' t ht
  · intro g d n n' hn hn' i j c hc hc' t ht
    rw [hsame.link g d n hn i (hlt hc) t ht, hf.links g d n n' hn hn' i j c hc hc' t ht]
  · intro p hp g d hgd t ht
    rw [hsame.convSrc p hp g d hgd t ht, hf.taken p hp g d hgd t ht]
  · intro p hp t ht
    rw [hsame.convDest p hp t ht, hf.given p hp t ht]

/-! ### Two towns and one station -/

/-- the two towns exchanged -/
def otherTown (x : String) : String := if x = "a" then "b" else if x = "b" then "a" else x

theorem otherTown_twice (x : String) : otherTown (otherTown x) = x := by
  unfold otherTown
  split_ifs <;> simp_all

def townNames : Names := ⟨id, otherTown, id, id⟩

theorem townNames_pairs : townNames.Pairs := ⟨fun _ => rfl, otherTown_twice, fun _ => rfl, fun _ => rfl⟩

theorem townNames_ok : townNames.Ok where
  net := Function.injective_id
  node := (show Function.Involutive otherTown from otherTown_twice).injective
  conv := Function.injective_id
  elem := Function.injective_id
  netEmpty := rfl
  nodeEmpty := by decide +kernel

/-- towns `a` and `b` ask for 10 each, a station `c` linked to both makes 10; both have 3 of wind -/
def townCalls : List Call :=
  [.studyNetwork "elec", .netNode 0 "a", .nodeConsumption 0 "load" (.num 100) (.num 10), .nodeProduction 0 "wind" (.num 0) (.num 3),
   .nodeNode 0 "b", .nodeConsumption 0 "load" (.num 100) (.num 10), .nodeProduction 0 "wind" (.num 0) (.num 3),
   .nodeNode 0 "c", .nodeProduction 0 "coal" (.num 1) (.num 10), .nodeLink 0 "c" "a" (.num 0) (.num 10),
   .nodeLink 0 "c" "b" (.num 0) (.num 10)]

def townStudy : Study := made 1 1 townCalls

theorem town_ready : Ready townStudy where
  built := ⟨1, 1, _, rawCalls_of (by decide +kernel), rfl⟩
  complete := by unfold CompleteConverters; decide +kernel
  ratios := RatiosNonzero.usable (by unfold RatiosNonzero; decide +kernel)
  clean := cleanSources_of (by decide +kernel)

theorem town_noSelf : NoSelfLink townStudy := noSelf_of (by decide +kernel)

theorem town_one : OneStorage townStudy := oneStorage_of (by decide +kernel)

theorem town_alike : SelfAlike townNames townStudy :=
  reordered_of (by decide +kernel) (by decide +kernel) (by decide +kernel) (by decide +kernel) (by decide +kernel)
    (by decide +kernel)

/-- town `a` has all that it asks for -/
def townAnswer : Var → ℚ
  | .prod _ "elec" "a" 0 => 3
  | .prod _ "elec" "b" 0 => 3
  | .prod _ "elec" "c" 0 => 10
  | .link _ "elec" "c" 0 => 7
  | .link _ "elec" "c" 1 => 3
  | .lol _ "elec" "b" 0 => 4
  | _ => 0

def townPrices : Prices := ⟨fun _ _ _ => 100, fun _ _ _ _ => 0, fun _ _ _ => 0⟩

theorem town_equilibrium : Equilibrium townStudy 0 (ofVars townAnswer) townPrices :=
  equilibrium_of (by decide +kernel) (by decide +kernel)

theorem town_optimal : Answers (fun _ => townAnswer) townStudy 0 Cmd.Optimal :=
  optimal_of_prices town_ready town_noSelf town_one (by decide +kernel) (Cmd.feasible_of_check (by decide +kernel)) town_equilibrium

def townResult : Result := resultAll townStudy (valsOf (fun _ => townAnswer) townStudy) ⟨[], [], 0, 0⟩

theorem town_solved : solveLp (fun _ => townAnswer) ⟨[], [], 0, 0⟩ townStudy = .ok townResult := Ready.solve town_ready _ _

/-- C145 refuted for results: one town is cut and not the other one, although nothing tells them apart -/
theorem C145_refuted : ∃ ρ s solver b r, Names.Ok ρ ∧ ρ.Pairs ∧ SelfAlike ρ s ∧ Ready s ∧ NoSelfLink s ∧ OneStorage s ∧ 0 < s.nbScn ∧
    solveLp solver b s = .ok r ∧ Answers solver s 0 Cmd.Optimal ∧ ¬ EvenHanded ρ s (dispatchOf s r 0) := by
  refine ⟨townNames, townStudy, fun _ => townAnswer, ⟨[], [], 0, 0⟩, townResult, townNames_ok, townNames_pairs, town_alike, town_ready,
    town_noSelf, town_one, by decide +kernel, town_solved, town_optimal, fun h => ?_⟩
  have e := h.consumptions "elec" "a" (inNode townStudy "elec" "a") (inNode townStudy "elec" "b") (hasNode_inNode (by decide +kernel))
    (hasNode_inNode (g := "elec") (d := "b") (by decide +kernel)) 0 0 ⟨⟨.scalar 100, 1, 1⟩, ⟨.scalar 10, 1, 1⟩, "load"⟩
    (by decide +kernel) (by decide +kernel) 0 (by decide +kernel)
  revert e
  decide +kernel

/-- a dispatch that cuts both towns alike costs the same -/
example : ∃ E, EvenHanded townNames townStudy E ∧ LeastCost townStudy 0 E ∧
    cost townStudy 0 E = cost townStudy 0 (dispatchOf townStudy townResult 0) :=
  C145 townNames_ok townNames_pairs town_alike town_ready.built
    (result_least town_ready town_noSelf town_one (by decide +kernel) town_solved town_optimal)

example := C145_twin townNames_ok town_alike town_ready.built
  (result_least town_ready town_noSelf town_one (by decide +kernel) town_solved town_optimal)

/-- in all results, both towns use the same wind -/
example : (dispatchOf townStudy townResult 0).prod "elec" "a" 0 0 = (dispatchOf townStudy townResult 0).prod "elec" "b" 0 0 := by
  obtain ⟨P, hP⟩ := C75 town_ready town_noSelf (by decide +kernel) town_solved town_optimal
  have hp := worth_price hP (g := "elec") (d := "b") (t := 0) (c := 100) (by decide +kernel) (.inr ⟨inNode townStudy "elec" "b", 0,
    ⟨⟨.scalar 100, 1, 1⟩, ⟨.scalar 10, 1, 1⟩, "load"⟩, hasNode_inNode (by decide +kernel), by decide +kernel, by decide +kernel,
    by decide +kernel, by decide +kernel⟩)
  exact ((C145_margin_partial townNames_ok town_alike town_ready town_noSelf town_one (by decide +kernel) town_solved town_optimal hP
    (g := "elec") (d := "b") (n := inNode townStudy "elec" "b") (n' := inNode townStudy "elec" "a")
    (hasNode_inNode (by decide +kernel)) (hasNode_inNode (g := "elec") (d := "a") (by decide +kernel)) (t := 0) (by decide +kernel)).1 0 0
    ⟨"wind", ⟨.scalar 0, 1, 1⟩, ⟨.scalar 3, 1, 1⟩⟩ (by decide +kernel) (by decide +kernel) (by rw [hp]; decide +kernel)).symm

/-! ### Two towns that need nothing from elsewhere -/

def farCalls : List Call :=
  [.studyNetwork "elec", .netNode 0 "a", .nodeConsumption 0 "load" (.num 100) (.num 2), .nodeProduction 0 "wind" (.num 5) (.num 3),
   .nodeNode 0 "b", .nodeConsumption 0 "load" (.num 100) (.num 2), .nodeProduction 0 "wind" (.num 5) (.num 3)]

def farStudy : Study := made 1 1 farCalls

theorem far_ready : Ready farStudy where
  built := ⟨1, 1, _, rawCalls_of (by decide +kernel), rfl⟩
  complete := by unfold CompleteConverters; decide +kernel
  ratios := RatiosNonzero.usable (by unfold RatiosNonzero; decide +kernel)
  clean := cleanSources_of (by decide +kernel)

theorem far_alike : SelfAlike townNames farStudy :=
  reordered_of (by decide +kernel) (by decide +kernel) (by decide +kernel) (by decide +kernel) (by decide +kernel)
    (by decide +kernel)

def farAnswer : Var → ℚ
  | .prod .. => 2
  | _ => 0

theorem far_noSelf : NoSelfLink farStudy := noSelf_of (by decide +kernel)

theorem far_one : OneStorage farStudy := oneStorage_of (by decide +kernel)

theorem far_equilibrium : Equilibrium farStudy 0 (ofVars farAnswer) ⟨fun _ _ _ => 5, fun _ _ _ _ => 0, fun _ _ _ => 0⟩ :=
  equilibrium_of (by decide +kernel) (by decide +kernel)

theorem far_optimal : Answers (fun _ => farAnswer) farStudy 0 Cmd.Optimal :=
  optimal_of_prices far_ready far_noSelf far_one (by decide +kernel) (Cmd.feasible_of_check (by decide +kernel)) far_equilibrium

def farResult : Result := resultAll farStudy (valsOf (fun _ => farAnswer) farStudy) ⟨[], [], 0, 0⟩

theorem far_solved : solveLp (fun _ => farAnswer) ⟨[], [], 0, 0⟩ farStudy = .ok farResult := Ready.solve far_ready _ _

theorem far_nodes : ∀ p ∈ farStudy.networks, ∀ q ∈ p.2.nodes, q.2 = ⟨[⟨⟨.scalar 100, 1, 1⟩, ⟨.scalar 2, 1, 1⟩, "load"⟩],
    [⟨"wind", ⟨.scalar 5, 1, 1⟩, ⟨.scalar 3, 1, 1⟩⟩], [], []⟩ := by decide +kernel

theorem far_balance {F : Dispatch} (hF : Spec.Feasible farStudy 0 F) {g d : String} {n : InputNode} (hn : HasNode farStudy g d n) {t : ℕ}
    (ht : t < farStudy.horizon) : F.prod g d 0 t = 2 - F.lol g d 0 t := by
  have e := hF.balanced g d n hn t ht
  have hc : farStudy.converters = [] := by decide +kernel
  have h0 : imports farStudy F g d t = 0 := by
    refine sumL_eq_zero fun p hp => sumL_eq_zero fun q hq => ?_
    rw [far_nodes p (List.mem_filter.mp hp).1 q hq]
    rfl
  obtain ⟨net, hg, hd⟩ := hn
  have en : n = _ := far_nodes _ hg _ hd
  subst en
  unfold incoming outgoing fromConverters toConverters at e
  rw [hc, h0] at e
  have hv : val (⟨.scalar 2, 1, 1⟩ : NumVal) 0 t = 2 := by
    have : t = 0 := by
      have : farStudy.horizon = 1 := by decide +kernel
      omega
    subst this
    decide +kernel
  simp [sumI, sumL, hv] at e
  exact e

theorem far_unique (E : Dispatch) (hE : LeastCost farStudy 0 E) : SameFlows farStudy (dispatchOf farStudy farResult 0) E := by
  have hD := result_least far_ready far_noSelf far_one (k := 0) (by decide +kernel) far_solved far_optimal
  have he : Equilibrium farStudy 0 (dispatchOf farStudy farResult 0) ⟨fun _ _ _ => 5, fun _ _ _ _ => 0, fun _ _ _ => 0⟩ :=
    equilibrium_of (by decide +kernel) (by decide +kernel)
  have hag := agree_of_equilibrium he (equilibrium_of_cost (Built.inv far_ready.built) (Ready.dest far_ready) hD.1 he hE.1
    (le_antisymm (hE.2 _ hD.1) (hD.2 _ hE.1)))
  have hc : farStudy.converters = [] := by decide +kernel
  have hone : ∀ {t}, t < farStudy.horizon → val (⟨.scalar 100, 1, 1⟩ : NumVal) 0 t ≠ 5 := by
    intro t ht
    have h1 : farStudy.horizon = 1 := by decide +kernel
    obtain rfl : t = 0 := by omega
    decide +kernel
  have hlol : ∀ g d n, HasNode farStudy g d n → ∀ i < n.consumptions.length, ∀ t < farStudy.horizon,
      (dispatchOf farStudy farResult 0).lol g d i t = E.lol g d i t := by
    intro g d n hn i hi t ht
    obtain ⟨net, hg, hd⟩ := id hn
    have en : n = _ := far_nodes _ hg _ hd
    refine hag.consumptions g d n hn i _ (List.getElem?_eq_getElem hi) t ht ?_
    subst en
    obtain rfl : i = 0 := by simpa using hi
    exact hone ht
  refine ⟨hlol, ?_, ?_, ?_, ?_, ?_, ?_, ?_⟩
  · intro g d n hn i hi t ht
    have e1 := far_balance hD.1 hn ht
    have e2 := far_balance hE.1 hn ht
    obtain ⟨net, hg, hd⟩ := id hn
    have en : n = _ := far_nodes _ hg _ hd
    have e3 := hlol g d n hn 0 (by rw [en]; simp) t ht
    subst en
    obtain rfl : i = 0 := by simpa using hi
    rw [e1, e2, e3]
  all_goals first
    | (rintro p hp; rw [hc] at hp; cases hp)
    | (rintro g d n ⟨net, hg, hd⟩ i hi
       have en : n = _ := far_nodes _ hg _ hd
       subst en
       simp at hi)

example : EvenHanded townNames farStudy (dispatchOf farStudy farResult 0) :=
  C145_unique_partial townNames_ok far_alike far_ready far_noSelf far_one (by decide +kernel) far_solved far_optimal far_unique

end Hadar.Props
