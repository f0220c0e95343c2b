import Verif.Proofs.Estimate
import Verif.Props.Like
import Verif.Props.Fair
import Verif.Props.Fit

/-!
# C119: costs estimated on sampled scenarios
-/

namespace Hadar.Props

open Hadar Spec

variable {Ω : Type} [Fintype Ω] {w : Ω → ℚ} {h n nb : ℕ} {I : Ω → List ℤ} {cs : List Call} {cs' : Ω → List Call} {r : Result}
  {r' : Ω → Result}

/-- the sampled scenarios cost what they cost in the whole study -/
theorem sampled_cost (hh : 0 < h) (hI : FairIndexes w n nb I) (hc : ∀ ω, SampledProgram h n cs (I ω) (cs' ω))
    (hs : SolvedBest (made h n cs) r) (hs' : ∀ ω, SolvedBest (made h nb (cs' ω)) (r' ω)) (ω : Ω) (k i : ℕ)
    (hk : (I ω)[k]? = some (i : ℤ)) :
    scenarioCost (made h nb (cs' ω)) (r' ω) k = scenarioCost (made h n cs) r i := by
  obtain ⟨hready, solver, b, hr, ha⟩ := hs
  obtain ⟨hready', solver', b', hr', ha'⟩ := hs' ω
  have hi := (hI.inRange ω).2 _ (List.mem_of_getElem? hk)
  have hkn : k < nb := (hI.inRange ω).1 ▸ (List.getElem?_eq_some_iff.mp hk).1
  have hP : (Pairing.same h n i nb k).Ok := ⟨hh, by have := hi.2; unfold Pairing.same; simp only; omega, hkn⟩
  have hl := hc ω k i hk
  rw [(hI.inRange ω).1] at hl
  exact C118_cost hP hl hready hready' hr hr' (ha i (by rw [made_nbScn]; exact hP.left)) (ha' k (by rw [made_nbScn]; exact hkn))

/-- C119: scenarios are drawn fairly among those of a study, and the program that builds the study is run with their data. The mean
cost of the scenarios drawn estimates the mean cost of the scenarios of the study without bias, and the mean square of the error is the
spread of the costs divided by the number of scenarios drawn. -/
theorem C119 (hh : 0 < h) (hn : 0 < n) (hnb : 0 < nb) (hI : FairIndexes w n nb I) (hc : ∀ ω, SampledProgram h n cs (I ω) (cs' ω))
    (hs : SolvedBest (made h n cs) r) (hs' : ∀ ω, SolvedBest (made h nb (cs' ω)) (r' ω)) :
    mean w (fun ω => scenarioMean nb (scenarioCost (made h nb (cs' ω)) (r' ω))) = scenarioMean n (scenarioCost (made h n cs) r) ∧
    mean w (fun ω => (scenarioMean nb (scenarioCost (made h nb (cs' ω)) (r' ω)) - scenarioMean n (scenarioCost (made h n cs) r)) ^ 2) =
      scenarioSpread n (scenarioCost (made h n cs) r) / nb :=
  drawn_mean hI hn hnb (sampled_cost hh hI hc hs hs')

/-- C119: with enough scenarios, the estimate is within `ε` of the mean cost but for a chance as small as wanted -/
theorem C119_enough (hh : 0 < h) (hn : 0 < n) (hnb : 0 < nb) (hI : FairIndexes w n nb I)
    (hc : ∀ ω, SampledProgram h n cs (I ω) (cs' ω)) (hs : SolvedBest (made h n cs) r)
    (hs' : ∀ ω, SolvedBest (made h nb (cs' ω)) (r' ω)) {ε δ : ℚ} (hε : 0 < ε) (hδ : 0 < δ)
    (hm : scenarioSpread n (scenarioCost (made h n cs) r) / (ε ^ 2 * δ) ≤ nb) :
    chance w (fun ω => ε ≤ |scenarioMean nb (scenarioCost (made h nb (cs' ω)) (r' ω)) -
      scenarioMean n (scenarioCost (made h n cs) r)|) ≤ δ := by
  refine le_trans (chebyshev hI.weights _ _ hε) ?_
  rw [(C119 hh hn hnb hI hc hs hs').2]
  have hn : (0 : ℚ) < nb := by exact_mod_cast hnb
  have he : 0 < ε ^ 2 := by positivity
  rw [div_le_iff₀ (mul_pos he hδ)] at hm
  rw [div_le_iff₀ he, div_le_iff₀ hn]
  linarith

/-- C119: so does the energy not served at a node, when the same solver is used -/
theorem C119_unserved (hh : 0 < h) (hn : 0 < n) (hnb : 0 < nb) (hI : FairIndexes w n nb I)
    (hc : ∀ ω, SampledProgram h n cs (I ω) (cs' ω)) {solver : Solver} {b : Benchmark} {b' : Ω → Benchmark}
    (hs : Ready (made h n cs)) (hr : solveLp solver b (made h n cs) = .ok r) (hs' : ∀ ω, Ready (made h nb (cs' ω)))
    (hr' : ∀ ω, solveLp solver (b' ω) (made h nb (cs' ω)) = .ok (r' ω)) {g d : String} {nd : InputNode}
    (hnd : HasNode (made h n cs) g d nd) :
    mean w (fun ω => scenarioMean nb (nodeUnserved (made h nb (cs' ω)) (r' ω) g d nd)) =
        scenarioMean n (nodeUnserved (made h n cs) r g d nd) ∧
    mean w (fun ω => (scenarioMean nb (nodeUnserved (made h nb (cs' ω)) (r' ω) g d nd) -
        scenarioMean n (nodeUnserved (made h n cs) r g d nd)) ^ 2) =
      scenarioSpread n (nodeUnserved (made h n cs) r g d nd) / nb := by
  refine drawn_mean hI hn hnb fun ω k i hk => ?_
  have hi := (hI.inRange ω).2 _ (List.mem_of_getElem? hk)
  have hkn : k < nb := (hI.inRange ω).1 ▸ (List.getElem?_eq_some_iff.mp hk).1
  have hP : (Pairing.same h n i nb k).Ok := ⟨hh, by have := hi.2; unfold Pairing.same; simp only; omega, hkn⟩
  have hl := hc ω k i hk
  rw [(hI.inRange ω).1] at hl
  have hf := C118_flows hP hl hs (hs' ω) hr (hr' ω)
  have hz := (C118_scenario hP hl).horizon
  unfold nodeUnserved
  refine Finset.sum_congr rfl fun j hj => ?_
  rw [← hz]
  refine Finset.sum_congr rfl fun t ht => ?_
  exact (hf.lol g d nd hnd j (Finset.mem_range.mp hj) t (Finset.mem_range.mp ht)).symm

/-- C119: so with enough scenarios it is within `ε` of the mean but for a chance as small as wanted -/
theorem C119_unserved_enough (hh : 0 < h) (hn : 0 < n) (hnb : 0 < nb) (hI : FairIndexes w n nb I)
    (hc : ∀ ω, SampledProgram h n cs (I ω) (cs' ω)) {solver : Solver} {b : Benchmark} {b' : Ω → Benchmark}
    (hs : Ready (made h n cs)) (hr : solveLp solver b (made h n cs) = .ok r) (hs' : ∀ ω, Ready (made h nb (cs' ω)))
    (hr' : ∀ ω, solveLp solver (b' ω) (made h nb (cs' ω)) = .ok (r' ω)) {g d : String} {nd : InputNode}
    (hnd : HasNode (made h n cs) g d nd) {ε δ : ℚ} (hε : 0 < ε) (hδ : 0 < δ)
    (hm : scenarioSpread n (nodeUnserved (made h n cs) r g d nd) / (ε ^ 2 * δ) ≤ nb) :
    chance w (fun ω => ε ≤ |scenarioMean nb (nodeUnserved (made h nb (cs' ω)) (r' ω) g d nd) -
      scenarioMean n (nodeUnserved (made h n cs) r g d nd)|) ≤ δ := by
  refine le_trans (chebyshev hI.weights _ _ hε) ?_
  rw [(C119_unserved hh hn hnb hI hc hs hr hs' hr' hnd).2]
  have hn : (0 : ℚ) < nb := by exact_mod_cast hnb
  have he : 0 < ε ^ 2 := by positivity
  rw [div_le_iff₀ (mul_pos he hδ)] at hm
  rw [div_le_iff₀ he, div_le_iff₀ hn]
  linarith

/-! ### With the shuffler -/

/-- arrays of rows: those of the data, and those picked by the shuffler -/
theorem like_rows {ix : List ℤ} {d rows : Rows} {a a' : NdArray} (ha : RowsArray d h a) (ha' : RowsArray rows h a')
    (hp : Picked d ix rows) {k i : ℕ} (hk : ix[k]? = some (i : ℤ)) :
    LikeData (.same h d.length i ix.length k) Eq (.array a) (.array a') := by
  have hlen : ix.length = rows.length := List.Forall₂.length_eq hp
  obtain ⟨row, hrow, j, e, hj⟩ := forall₂_get_left hp hk
  have e : i = j := by exact_mod_cast e
  subst e
  refine like_matrix ha.shape (by rw [show (Pairing.same h d.length i ix.length k).n' = ix.length from rfl, hlen]; exact ha'.shape) ?_
  intro t ht
  have ht : t < h := ht
  have hrl := ha.lengths row (List.mem_of_getElem? hj)
  obtain ⟨x, hx⟩ : ∃ x, row[t]? = some x := ⟨_, List.getElem?_eq_getElem (by rw [hrl]; exact ht)⟩
  have h1 : d.flatten[i * h + t]? = some x := by rw [getElem?_flatten_const ha.lengths i t ht, hj]; exact hx
  have h2 : rows.flatten[k * h + t]? = some x := by rw [getElem?_flatten_const ha'.lengths k t ht, hrow]; exact hx
  rw [ha.data, List.getElem?_map] at h1
  rw [ha'.data, List.getElem?_map] at h2
  obtain ⟨q, hq, rfl⟩ := Option.map_eq_some_iff.mp h1
  obtain ⟨q', hq', e⟩ := Option.map_eq_some_iff.mp h2
  exact ⟨q, q', hq, hq', (Option.some.inj e).symm⟩

/-- limits read in data that are not negative -/
theorem limit_rows (hh : 0 < h) {ix : List ℤ} {d rows : Rows} {a a' : NdArray} (ha : RowsArray d h a) (ha' : RowsArray rows h a')
    (hp : Picked d ix rows) (hpos : ∀ row ∈ d, ∀ q : ℚ, some q ∈ row → 0 ≤ q) {k i : ℕ} (hk : ix[k]? = some (i : ℤ)) :
    LikeLimit (.same h d.length i ix.length k) Eq (.array a) (.array a') := by
  have hl := like_rows ha ha' hp hk
  obtain ⟨row, hrow, j, e, hj⟩ := forall₂_get_left hp hk
  have e : i = j := by exact_mod_cast e
  subst e
  have hP : (Pairing.same h d.length i ix.length k).Ok :=
    ⟨hh, (List.getElem?_eq_some_iff.mp hj).1, (List.getElem?_eq_some_iff.mp hk).1⟩
  refine like_limit hP hl (fun q hq => ?_) (fun q hq => ?_)
  · obtain ⟨row', h1, h2⟩ := means_row ha rfl hP.left hh hq
    exact hpos row' (List.mem_of_getElem? h1) q (List.mem_of_getElem? h2)
  · obtain ⟨row', h1, h2⟩ := means_row ha' (List.Forall₂.length_eq hp).symm hP.right hh hq
    rw [show (Pairing.same h d.length i ix.length k).k = k from rfl, hrow] at h1
    cases h1
    exact hpos row (List.mem_of_getElem? hj) q (List.mem_of_getElem? h2)

/-- the indexes `ix` say where the rows given by the shuffler for timelines of `n` scenarios that start a chunk come from -/
def Explains (s : Shuffler) (size n : ℕ) (res : Dict String Rows) (ix : List ℤ) : Prop :=
  ∀ p a x d, s[p]? = some (a, x) → x.data = some d → d.length = n → p % size = 0 →
    ∃ rows, res.get? a = some rows ∧ Picked d ix rows

/-- C119 with the shuffler: a program is run with the data of timelines that start a chunk, and with what the shuffler gives for them.
The mean cost of the shuffled scenarios estimates the mean cost over the data. -/
theorem C119_shuffle {s : Shuffler} {size : ℕ} {res : Ω → Dict String Rows} (hf : FairShuffles w s size nb n res) (hh : 0 < h)
    (hn : 0 < n) (hnb : 0 < nb)
    (hc : ∀ ω ix, ix.length = nb → Explains s size n (res ω) ix → SampledProgram h n cs ix (cs' ω))
    (hs : SolvedBest (made h n cs) r) (hs' : ∀ ω, SolvedBest (made h nb (cs' ω)) (r' ω)) :
    mean w (fun ω => scenarioMean nb (scenarioCost (made h nb (cs' ω)) (r' ω))) = scenarioMean n (scenarioCost (made h n cs) r) ∧
    mean w (fun ω => (scenarioMean nb (scenarioCost (made h nb (cs' ω)) (r' ω)) - scenarioMean n (scenarioCost (made h n cs) r)) ^ 2) =
      scenarioSpread n (scenarioCost (made h n cs) r) / nb := by
  obtain ⟨I, hI, hp⟩ := hf.picked
  refine C119 hh hn hnb hI (fun ω => hc ω _ (hI.inRange ω).1 fun p a x d h1 h2 h3 h4 => ?_) hs hs'
  obtain ⟨rows, hr⟩ := hp p a x d h1 h2 h3 h4
  exact ⟨rows ω, (hr ω).1, (hr ω).2.2⟩

/-! ### Concrete cases -/

/-- one node, one load, sun and wind -/
def sunCalls (sun wind load : NdArray) : List Call :=
  [.studyNetwork "elec", .netNode 0 "a", .nodeConsumption 0 "load" (.num 100) (.array load),
   .nodeProduction 0 "sun" (.num 0) (.array sun), .nodeProduction 0 "wind" (.num 1) (.array wind)]

theorem sunCalls_sampled {ix : List ℤ} {sun wind load sun' wind' load' : Rows} {a1 a2 a3 b1 b2 b3 : NdArray} (hh : 0 < h)
    (hl : sun.length = n ∧ wind.length = n ∧ load.length = n)
    (h1 : RowsArray sun h a1) (h2 : RowsArray wind h a2) (h3 : RowsArray load h a3) (h1' : RowsArray sun' h b1)
    (h2' : RowsArray wind' h b2) (h3' : RowsArray load' h b3) (p1 : Picked sun ix sun') (p2 : Picked wind ix wind')
    (p3 : Picked load ix load') (hpos : ∀ d ∈ [sun, wind, load], ∀ row ∈ d, ∀ q : ℚ, some q ∈ row → 0 ≤ q) :
    SampledProgram h n (sunCalls a1 a2 a3) ix (sunCalls b1 b2 b3) := by
  intro k i hk
  obtain ⟨e1, e2, e3⟩ := hl
  have l1 := limit_rows hh h1 h1' p1 (hpos _ (by simp)) hk
  have l2 := limit_rows hh h2 h2' p2 (hpos _ (by simp)) hk
  have l3 := limit_rows hh h3 h3' p3 (hpos _ (by simp)) hk
  rw [e1] at l1
  rw [e2] at l2
  rw [e3] at l3
  exact .cons (.studyNetwork _) <| .cons (.netNode _ _) <| .cons (.nodeConsumption _ _ (like_number rfl) l3) <|
    .cons (.nodeProduction _ _ (like_number rfl) l1) <| .cons (.nodeProduction _ _ (like_number rfl) l2) .nil

/-- rows of one number as an array -/
def rowArray (rows : Rows) : NdArray := ⟨[rows.length, 1], rows.map firstNumber, by simp⟩

theorem rowArray_rows {rows : Rows} (hr : ∀ row ∈ rows, ∃ q : ℚ, row = [some q]) : RowsArray rows 1 (rowArray rows) where
  shape := rfl
  lengths row h := by
    obtain ⟨q, rfl⟩ := hr row h
    rfl
  data := by
    show rows.flatten = (rows.map firstNumber).map some
    induction rows with
    | nil => rfl
    | cons row rows ih =>
      obtain ⟨q, rfl⟩ := hr row List.mem_cons_self
      rw [List.flatten_cons, ih fun r h => hr r (List.mem_cons_of_mem _ h)]
      rfl

/-- the rows at the indexes -/
def rowsAt (d : Rows) (ix : List ℤ) : Rows := ix.map fun z => d.getD z.toNat []

theorem picked_rowsAt {d : Rows} {ix : List ℤ} {rows : Rows} (h : Picked d ix rows) : rows = rowsAt d ix := by
  induction h with
  | nil => rfl
  | cons hz _ ih =>
    obtain ⟨k, rfl, hk⟩ := hz
    rw [rowsAt, List.map_cons, ← rowsAt, ← ih]
    simp [List.getD_eq_getElem?_getD, hk]

theorem picked_mem {d : Rows} {ix : List ℤ} {rows : Rows} (h : Picked d ix rows) : ∀ row ∈ rows, row ∈ d := by
  intro row hr
  obtain ⟨z, _, k, _, hk⟩ := forall₂_mem_right h hr
  exact List.mem_of_getElem? hk

/-- the program with the data of `threeData` at the indexes -/
def sunAt (ix : List ℤ) : List Call :=
  sunCalls (rowArray (rowsAt [[some 1], [some 2], [some 3]] ix)) (rowArray (rowsAt [[some 10], [some 20], [some 30]] ix))
    (rowArray (rowsAt [[some 7], [some 8], [some 9]] ix))

/-- a check of one scenario of a study -/
def limitsCheck (s : Study) (k : ℕ) : Bool :=
  s.networks.all (fun p => p.2.nodes.all fun q =>
    q.2.consumptions.all (fun c => (List.range s.horizon).all fun t => decide (0 ≤ val c.quantity k t)) &&
    q.2.productions.all (fun c => (List.range s.horizon).all fun t => decide (0 ≤ val c.quantity k t)) &&
    q.2.links.isEmpty && q.2.storages.isEmpty) && s.converters.isEmpty

theorem limits_of {s : Study} {k : ℕ} (h : limitsCheck s k = true) : LimitsOk s k := by
  simp only [limitsCheck, Bool.and_eq_true, List.all_eq_true, decide_eq_true_eq, List.mem_range, List.isEmpty_iff] at h
  obtain ⟨h, hc⟩ := h
  refine ⟨?_, ?_, ?_, ?_, ?_⟩
  · rintro g d n ⟨net, hg, hd⟩; exact (h _ hg _ hd).1.1.1
  · rintro g d n ⟨net, hg, hd⟩; exact (h _ hg _ hd).1.1.2
  · rintro g d n ⟨net, hg, hd⟩ c hm; rw [(h _ hg _ hd).1.2] at hm; cases hm
  · rintro g d n ⟨net, hg, hd⟩ c hm; rw [(h _ hg _ hd).2] at hm; cases hm
  · intro p hp; rw [hc] at hp; cases hp

theorem sunAt_best {n : ℕ} {ix : List ℤ}
    (h : ((made 1 n (sunAt ix)).converters.isEmpty && (List.range n).all (limitsCheck (made 1 n (sunAt ix)))) = true) :
    ∃ r, SolvedBest (made 1 n (sunAt ix)) r := by
  simp only [Bool.and_eq_true, List.isEmpty_iff, List.all_eq_true, List.mem_range] at h
  obtain ⟨hc, hl⟩ := h
  have hr : Ready (made 1 n (sunAt ix)) := by
    refine ⟨⟨1, n, sunAt ix, rawCalls_of rfl, rfl⟩, ?_, RatiosNonzero.usable ?_, cleanSources_of ?_⟩
    all_goals
      intro p hp
      rw [hc] at hp
      cases hp
  obtain ⟨S, hS⟩ := C71_solver
  refine ⟨_, hr, S, ⟨[], [], 0, 0⟩, Ready.solve hr S _, fun k hk => hS _ hr k hk (limits_of (hl k ?_))⟩
  rwa [made_nbScn] at hk

theorem sunAt_data : sunAt [0, 1, 2] = sunCalls (rowArray [[some 1], [some 2], [some 3]]) (rowArray [[some 10], [some 20], [some 30]])
    (rowArray [[some 7], [some 8], [some 9]]) := rfl

theorem sunAt_all : ∀ l ∈ listsOf (Finset.Ico (0 : ℤ) (3 : ℕ)) 4,
    ((made 1 4 (sunAt l)).converters.isEmpty && (List.range 4).all (limitsCheck (made 1 4 (sunAt l)))) = true := by
  decide +kernel

theorem sunAt_three : ((made 1 3 (sunAt [0, 1, 2])).converters.isEmpty &&
    (List.range 3).all (limitsCheck (made 1 3 (sunAt [0, 1, 2])))) = true := by decide +kernel

/-- the data of `threeData` -/
def threeRows : List Rows := [[[some 1], [some 2], [some 3]], [[some 10], [some 20], [some 30]], [[some 7], [some 8], [some 9]]]

theorem threeRows_one : ∀ d ∈ threeRows, ∀ row ∈ d, ∃ q : ℚ, row = [some q] ∧ 0 ≤ q := by
  unfold threeRows
  simp only [List.mem_cons, List.not_mem_nil, or_false]
  rintro d (rfl | rfl | rfl) row hrow <;> simp only [List.mem_cons, List.not_mem_nil, or_false] at hrow <;>
    rcases hrow with rfl | rfl | rfl <;> exact ⟨_, rfl, by norm_num⟩

theorem sunAt_sampled {ix jx : List ℤ} (hp : ∀ d ∈ threeRows, Picked d ix (rowsAt d jx)) :
    SampledProgram 1 3 (sunAt [0, 1, 2]) ix (sunAt jx) := by
  have one : ∀ d ∈ threeRows, RowsArray (rowsAt d jx) 1 (rowArray (rowsAt d jx)) := fun d hd => rowArray_rows fun row hm => by
    obtain ⟨q, hq, _⟩ := threeRows_one d hd row (picked_mem (hp d hd) row hm)
    exact ⟨q, hq⟩
  have full : ∀ d ∈ threeRows, RowsArray d 1 (rowArray d) := fun d hd => rowArray_rows fun row hm => by
    obtain ⟨q, hq, _⟩ := threeRows_one d hd row hm
    exact ⟨q, hq⟩
  rw [sunAt_data]
  unfold sunAt
  have m0 : [[some 1], [some 2], [some 3]] ∈ threeRows := List.mem_cons_self
  have m1 : [[some 10], [some 20], [some 30]] ∈ threeRows := List.mem_cons_of_mem _ List.mem_cons_self
  have m2 : [[some 7], [some 8], [some 9]] ∈ threeRows := List.mem_cons_of_mem _ (List.mem_cons_of_mem _ List.mem_cons_self)
  refine sunCalls_sampled Nat.one_pos ⟨rfl, rfl, rfl⟩ (full _ m0) (full _ m1) (full _ m2) (one _ m0) (one _ m1) (one _ m2)
    (hp _ m0) (hp _ m1) (hp _ m2) fun d hd row hm q hq => ?_
  obtain ⟨q', rfl, h0⟩ := threeRows_one d hd row hm
  simp only [List.mem_singleton, Option.some.injEq] at hq
  exact hq ▸ h0

theorem threeRows_data : ∀ d ∈ threeRows, d.length = 3 ∧ ∃ p : ℕ, ∃ a, ∃ x : Source, threeData[p]? = some (a, x) ∧ x.data = some d := by
  unfold threeRows
  simp only [List.mem_cons, List.not_mem_nil, or_false]
  rintro d (rfl | rfl | rfl)
  · exact ⟨rfl, 0, _, _, rfl, rfl⟩
  · exact ⟨rfl, 1, _, _, rfl, rfl⟩
  · exact ⟨rfl, 2, _, _, rfl, rfl⟩

/-- the hypotheses of `C119_shuffle` are met by the program above on `threeData` -/
example : ∃ (Ω : Type) (_ : Fintype Ω) (w : Ω → ℚ) (res : Ω → Dict String Rows) (cs' : Ω → List Call) (r : Result) (r' : Ω → Result),
    FairShuffles w threeData 1 4 3 res ∧ SolvedBest (made 1 3 (sunAt [0, 1, 2])) r ∧ (∀ ω, SolvedBest (made 1 4 (cs' ω)) (r' ω)) ∧
    ∀ ω ix, ix.length = 4 → Explains threeData 1 3 (res ω) ix → SampledProgram 1 3 (sunAt [0, 1, 2]) ix (cs' ω) := by
  obtain ⟨Ω, i, w, res, h⟩ := three_fair
  obtain ⟨I, hI, hp⟩ := h.picked
  obtain ⟨r, hr⟩ := sunAt_best sunAt_three
  have hr' : ∀ ω, ∃ r', SolvedBest (made 1 4 (sunAt (I ω))) r' := fun ω => sunAt_best
    (sunAt_all _ (mem_listsOf.mpr ⟨(hI.inRange ω).1, fun z hz => Finset.mem_Ico.mpr ((hI.inRange ω).2 z hz)⟩))
  choose r' hr' using hr'
  refine ⟨Ω, i, w, res, fun ω => sunAt (I ω), r, r', h, hr, hr', fun ω ix hix hex => sunAt_sampled fun d hd => ?_⟩
  obtain ⟨hl, p, a, x, h1, h2⟩ := threeRows_data d hd
  obtain ⟨rows, hg, hpk⟩ := hex p a x d h1 h2 hl (Nat.mod_one _)
  obtain ⟨rows', hg'⟩ := hp p a x d h1 h2 hl (Nat.mod_one _)
  have e : rows' ω = rows := Option.some.inj ((hg' ω).1.symm.trans hg)
  rw [← picked_rowsAt (hg' ω).2.2, e]
  exact hpk

end Hadar.Props
