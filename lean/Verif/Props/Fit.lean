import Verif.Spec.Fit
import Verif.Props.Shuffler
import Verif.Props.Study

/-!
# C99: series given by the shuffler fit a study
-/

namespace Hadar.Props

open Hadar Hadar.Spec World

variable {σ : Type}

/-- the numbers of a regular matrix -/
private theorem regular_numbers {h : ℕ} : ∀ {rows : Rows}, FullRows h rows →
    ∃ m : List (List ℚ), rows = m.map (fun r => r.map some) ∧ ∀ r ∈ m, r.length = h
  | [], _ => ⟨[], rfl, by simp⟩
  | row :: rest, hr => by
    obtain ⟨m, hm, hl⟩ := regular_numbers (rows := rest) fun r hr' => hr r (List.mem_cons_of_mem _ hr')
    obtain ⟨h1, h2⟩ := hr row List.mem_cons_self
    have h3 : row = (row.map fun x => x.getD 0).map some := by
      rw [List.map_map]
      conv_lhs => rw [← List.map_id row]
      refine List.map_congr_left fun x hx => ?_
      rcases x with _ | q
      · exact absurd hx h2
      · rfl
    refine ⟨(row.map fun x => x.getD 0) :: m, by rw [List.map_cons, ← h3, ← hm], ?_⟩
    intro r hr'
    rcases List.mem_cons.1 hr' with rfl | hr'
    · simpa using h1
    · exact hl r hr'

private theorem length_flatten_const {α : Type} {h : ℕ} : ∀ {m : List (List α)}, (∀ r ∈ m, r.length = h) →
    m.flatten.length = m.length * h
  | [], _ => by simp
  | r :: m, hm => by
    simp only [List.flatten_cons, List.length_append, List.length_cons]
    rw [hm r List.mem_cons_self, length_flatten_const fun r hr => hm r (List.mem_cons_of_mem _ hr)]
    ring

/-- A matrix whose rows all have `h` values, without NaN, is an array of numbers. -/
theorem C99_array {h : ℕ} {rows : Rows} (hr : FullRows h rows) : ∃ a, RowsArray rows h a := by
  obtain ⟨m, rfl, hl⟩ := regular_numbers hr
  refine ⟨⟨[(m.map fun r => r.map some).length, h], m.flatten, ?_⟩, rfl, fun row hrow => (hr row hrow).1, ?_⟩
  · rw [length_flatten_const hl]
    simp
  · rw [List.map_flatten]

/-- **C99** (which studies). The rows given by a shuffle are accepted as a quantity or a cost by a study exactly
when the study has as many scenarios as samples were asked, and the rows its horizon (or one value only, used
for all time steps). -/
theorem C99_fits {h n h' : ℕ} {rows : Rows} {a : NdArray} (ha : RowsArray rows h' a) :
    (∃ v, (Factory.mk h n).create (.array a) = .ok v) ↔ rows.length = n ∧ (h' = h ∨ h' = 1) := by
  rw [C03_accepts_iff]
  constructor
  · intro hacc
    cases hacc with
    | array _ hs =>
      rw [ha.shape] at hs
      simp only [List.cons.injEq, and_true, reduceCtorEq, false_or, List.nil_eq, and_false] at hs
      tauto
  · rintro ⟨rfl, rfl | rfl⟩
    · exact .array _ (.inr (.inr ha.shape))
    · exact .array _ (.inr (.inl ha.shape))

theorem means_row {h n : ℕ} {rows : Rows} {a : NdArray} (ha : RowsArray rows h a) (hn : rows.length = n)
    {k t : ℕ} (hk : k < n) (ht : t < h) {q : ℚ} (hq : Means h n (.array a) k t q) :
    ∃ row, rows[k]? = some row ∧ row[t]? = some (some q) := by
  subst hn
  obtain ⟨row, hrow⟩ : ∃ row, rows[k]? = some row := ⟨_, List.getElem?_eq_getElem hk⟩
  refine ⟨row, hrow, ?_⟩
  have hflat : rows.flatten[k * h + t]? = row[t]? := by
    rw [getElem?_flatten_const ha.lengths k t ht, hrow]
    rfl
  have key : ∀ i, i = k * h + t → a.data[i]? = some q → row[t]? = some (some q) := by
    rintro i rfl hi
    rw [← hflat, ha.data, List.getElem?_map, hi]
    rfl
  cases hq with
  | perTime _ _ _ _ hs => rw [ha.shape] at hs; simp at hs
  | perScenario _ _ _ _ hs hq =>
    rw [ha.shape] at hs
    simp only [List.cons.injEq, and_true, true_and] at hs
    subst hs
    exact key k (by omega) hq
  | full _ _ _ _ hs hq => exact key _ rfl hq

/-- **C99** (which values). A series stored for an array of rows follows, in each scenario, the row of the same
rank over the whole horizon. -/
theorem C99_rows {h n : ℕ} {rows own : Rows} {a : NdArray} (ha : RowsArray rows h a) (hn : rows.length = n)
    (hown : ∀ row ∈ rows, row ∈ own) {v : NumVal} (hv : Stores h n (.array a) v) : Follows h n own v := by
  intro k hk
  obtain ⟨row, hrow⟩ : ∃ row, rows[k]? = some row := ⟨_, List.getElem?_eq_getElem (hn ▸ hk)⟩
  refine ⟨row, hown _ (List.mem_of_getElem? hrow), fun t ht => ?_⟩
  obtain ⟨q, hq, hm⟩ := hv k t hk ht
  obtain ⟨row', hrow', hq'⟩ := means_row ha hn hk ht hm
  rw [hrow] at hrow'
  cases hrow'
  exact ⟨q, hq', hq⟩

private theorem array_isRaw (a : NdArray) : IsRaw (.array a) := by
  intro v h
  cases h

/-- **C99**. After any registrations, the rows that a shuffle of `nb` samples gives for a name, when what was
last registered under that name has `h` values in each row and no NaN, are an array that a study of horizon
`h` with `nb` scenarios accepts as a quantity or a cost. In each scenario, the series that the study stores
follows, over the whole horizon, one row of what was registered. Same restriction on pipelines as
`C58_partial`. -/
theorem C99_partial (g : Rng σ) (w : PipeWorld σ) {sampler : Sampler σ} (hs : DrawsInRange sampler)
    (env : ℕ → Rand σ) {size : ℕ} (hsize : 0 < size) (regs : List (PipeWorld σ × Registration))
    (hb : ∀ name o, Last regs name o → NoBlank g w o) {order : List ℕ}
    (ho : order.Perm (List.range (Pool.nbChunks size (registerAll regs []).length))) {nb : ℕ}
    {res : Dict String Rows}
    (hres : Shuffler.shuffle g w sampler env size order (registerAll regs []) nb = .ok res)
    {name : String} {o : Origin} (hl : Last regs name o) {h : ℕ}
    (hfull : ∀ i own, Own g w (env i) o own → FullRows h own) :
    ∃ rows a own i v, res.get? name = some rows ∧ RowsArray rows h a ∧ Own g w (env i) o own ∧
      (Factory.mk h nb).create (.array a) = .ok v ∧ Follows h nb own v := by
  obtain ⟨rows, own, i, h1, h2, h3, h4⟩ := (C58_partial g w hs env hsize regs hb ho hres).2 name o hl
  obtain ⟨a, ha⟩ := C99_array (h := h) (rows := rows) fun row hrow => hfull i own h3 row (h4 row hrow)
  obtain ⟨v, hv⟩ := (C99_fits (h := h) (n := nb) ha).2 ⟨h2, .inl rfl⟩
  exact ⟨rows, a, own, i, v, h1, ha, h3, hv,
    C99_rows ha h2 h4 fun s t hs ht => C01_broadcast h nb _ v (array_isRaw a) hv s t hs ht⟩

private theorem never_negative {h n : ℕ} (hh : 0 < h) (hn' : 0 < n) {rows : Rows} {a : NdArray}
    (ha : RowsArray rows h a) (hn : rows.length = n) (hpos : ∀ row ∈ rows, ∀ q : ℚ, some q ∈ row → 0 ≤ q) :
    ¬ Everywhere h n (.array a) (· < 0) := by
  intro hneg
  obtain ⟨q, hq, hlt⟩ := hneg 0 0 hn' hh
  obtain ⟨row, hrow, hq'⟩ := means_row ha hn hn' hh hq
  exact absurd (hpos row (List.mem_of_getElem? hrow) q (List.mem_of_getElem? hq')) (not_le.2 hlt)

/-- **C99** in the study: `node.production(name=..., cost=..., quantity=res[...])` on a node of a study with the
horizon of the data and as many scenarios as samples, with a name not used yet, an acceptable cost and data
without negative values, adds a production, which has in each scenario one of the registered rows. -/
theorem C99_production {w : World} (hi : WorldInv w) (hh : 0 < w.study.horizon) (hs : 0 < w.study.nbScn)
    {ref : ℕ} {g d name : String} {nd : InputNode} {cost : Raw} (hc : IsRaw cost)
    (hg : w.heap[ref]? = some ⟨some g, some d⟩) (hnd : HasNode w.study g d nd)
    (hnew : name ∉ nd.productions.map (·.name)) (hcost : Accepts w.study.horizon w.study.nbScn cost)
    {rows own : Rows} {a : NdArray} (ha : RowsArray rows w.study.horizon a) (hn : rows.length = w.study.nbScn)
    (hown : ∀ row ∈ rows, row ∈ own) (hpos : ∀ row ∈ own, ∀ q : ℚ, some q ∈ row → 0 ≤ q) :
    ∃ hd w' g' d' n p, step (.nodeProduction ref name cost (.array a)) w = (.ok hd, w') ∧
      w.heap[ref]? = some ⟨some g', some d'⟩ ∧
      OnlyNodeChanged w.study w'.study g' d' n { n with productions := n.productions ++ [p] } ∧ p.name = name ∧
      Follows w.study.horizon w.study.nbScn own p.quantity := by
  obtain ⟨hd, hok⟩ := (C05_production_partial w hi hh hs ref g d name nd cost (.array a) (array_isRaw a) hg hnd).1.2
    ⟨hnew, .array _ (.inr (.inr (hn ▸ ha.shape))),
      never_negative hh hs ha hn fun row hrow => hpos row (hown row hrow), hcost⟩
  have hstep : step (.nodeProduction ref name cost (.array a)) w =
      (.ok hd, (step (.nodeProduction ref name cost (.array a)) w).2) := Prod.ext hok rfl
  obtain ⟨g', d', n, qv, cv, h1, h2, h3, _⟩ := C09_production w _ ref name cost _ hd (array_isRaw a) hc hstep
  exact ⟨hd, _, g', d', n, _, hstep, h1, h2, rfl, C99_rows ha hn hown h3⟩

/-- The same for `node.consumption(...)`. -/
theorem C99_consumption {w : World} (hi : WorldInv w) (hh : 0 < w.study.horizon) (hs : 0 < w.study.nbScn)
    {ref : ℕ} {g d name : String} {nd : InputNode} {cost : Raw} (hc : IsRaw cost)
    (hg : w.heap[ref]? = some ⟨some g, some d⟩) (hnd : HasNode w.study g d nd)
    (hnew : name ∉ nd.consumptions.map (·.name)) (hcost : Accepts w.study.horizon w.study.nbScn cost)
    {rows own : Rows} {a : NdArray} (ha : RowsArray rows w.study.horizon a) (hn : rows.length = w.study.nbScn)
    (hown : ∀ row ∈ rows, row ∈ own) (hpos : ∀ row ∈ own, ∀ q : ℚ, some q ∈ row → 0 ≤ q) :
    ∃ hd w' g' d' n c, step (.nodeConsumption ref name cost (.array a)) w = (.ok hd, w') ∧
      w.heap[ref]? = some ⟨some g', some d'⟩ ∧
      OnlyNodeChanged w.study w'.study g' d' n { n with consumptions := n.consumptions ++ [c] } ∧ c.name = name ∧
      Follows w.study.horizon w.study.nbScn own c.quantity := by
  obtain ⟨hd, hok⟩ := (C05_consumption_partial w hi hh hs ref g d name nd cost (.array a) (array_isRaw a) hg hnd).1.2
    ⟨hnew, .array _ (.inr (.inr (hn ▸ ha.shape))),
      never_negative hh hs ha hn fun row hrow => hpos row (hown row hrow), hcost⟩
  have hstep : step (.nodeConsumption ref name cost (.array a)) w =
      (.ok hd, (step (.nodeConsumption ref name cost (.array a)) w).2) := Prod.ext hok rfl
  obtain ⟨g', d', n, qv, cv, h1, h2, h3, _⟩ := C09_consumption w _ ref name cost _ hd (array_isRaw a) hc hstep
  exact ⟨hd, _, g', d', n, _, hstep, h1, h2, rfl, C99_rows ha hn hown h3⟩

/-! ### Cases -/

/-- the hypotheses of `C99_partial` about the data, for the second registration of `registrations` -/
theorem raw_full : ∀ i own, Own g0 toShuffler ((fun _ : ℕ => rand 1) i) (.raw [[some 1, some 2], [some 3, some 4]]) own →
    FullRows 2 own := by
  rintro _ _ ⟨⟩
  intro row hrow
  simp only [List.mem_cons, List.not_mem_nil, or_false] at hrow
  rcases hrow with rfl | rfl <;> simp

/-- the rows that the shuffle of `registrations` gives for `load` -/
theorem load_array : RowsArray [[some 10, some 20], [some 10, some 20]] 2 ⟨[2, 2], [10, 20, 10, 20], rfl⟩ :=
  ⟨rfl, by simp, rfl⟩

/-- a study that takes them -/
def fedWorld : World := (start 2 2).run [.studyNetwork "default", .netNode 0 "a"]

example : ∃ hd w' g' d' n p, step (.nodeProduction 0 "load" (.num 10)
    (.array ⟨[2, 2], [10, 20, 10, 20], rfl⟩)) fedWorld = (.ok hd, w') ∧
      fedWorld.heap[0]? = some ⟨some g', some d'⟩ ∧
      OnlyNodeChanged fedWorld.study w'.study g' d' n { n with productions := n.productions ++ [p] } ∧
      p.name = "load" ∧ Follows 2 2 [[some 10, some 20], [some 15, some 25]] p.quantity :=
  C99_production (reachable_inv 2 2 _) (by decide) (by decide) (nd := ⟨[], [], [], []⟩) (by rintro v ⟨⟩)
    (g := "default") (d := "a") (by decide +kernel)
    ⟨_, List.mem_singleton.2 rfl, List.mem_singleton.2 rfl⟩ (by simp) (.number _)
    (rows := [[some 10, some 20], [some 10, some 20]]) ⟨rfl, by decide +kernel, rfl⟩ rfl (by simp)
    (by
      intro row hrow q hq
      simp only [List.mem_cons, List.not_mem_nil, or_false] at hrow
      rcases hrow with rfl | rfl <;>
        · simp only [List.mem_cons, Option.some.injEq, List.not_mem_nil, or_false] at hq
          rcases hq with rfl | rfl <;> norm_num)

/-! ### The theorems applied to concrete cases -/

example : ∃ a, RowsArray [[some 1, some 2], [some 3, some 4]] 2 a :=
  C99_array (by
    intro row hrow
    simp only [List.mem_cons, List.not_mem_nil, or_false] at hrow
    rcases hrow with rfl | rfl <;> simp)

/-- two rows fit two scenarios, not three -/
example : (∃ v, (Factory.mk 2 2).create (.array ⟨[2, 2], [10, 20, 10, 20], rfl⟩) = .ok v) ∧
    ¬ ∃ v, (Factory.mk 2 3).create (.array ⟨[2, 2], [10, 20, 10, 20], rfl⟩) = .ok v :=
  ⟨(C99_fits load_array).mpr ⟨rfl, .inl rfl⟩, fun h => absurd ((C99_fits load_array).mp h).1 (by decide)⟩

example : ∃ v, (Factory.mk 2 2).create (.array ⟨[2, 2], [10, 20, 10, 20], rfl⟩) = .ok v ∧
    Follows 2 2 [[some 10, some 20], [some 15, some 25]] v := by
  obtain ⟨v, hv⟩ := (C99_fits (h := 2) (n := 2) load_array).mpr ⟨rfl, .inl rfl⟩
  exact ⟨v, hv, C99_rows load_array rfl (by simp) fun s t hs ht => C01_broadcast 2 2 _ v (array_isRaw _) hv s t hs ht⟩

/-- data given as arrays, the second one again -/
def drawn : List (PipeWorld ℕ × Registration) :=
  [(toShuffler, .data "solar" [[some 1, some 2]]), (toShuffler, .data "solar" [[some 1, some 2], [some 3, some 4]])]

theorem drawn_last : Last drawn "solar" (.raw [[some 1, some 2], [some 3, some 4]]) :=
  ⟨[(toShuffler, .data "solar" [[some 1, some 2]])], toShuffler, .data "solar" [[some 1, some 2], [some 3, some 4]], [], rfl, rfl,
    trivial, .data _ _, by simp⟩

theorem drawn_noBlank (name : String) (o : Origin) (h : Last drawn name o) : NoBlank g0 toShuffler o := by
  obtain ⟨pre, w, reg, post, he, -, hacc, hr, -⟩ := h
  have hm : (w, reg) ∈ drawn := by rw [he]; simp
  simp only [drawn, List.mem_cons, Prod.mk.injEq, List.not_mem_nil, or_false] at hm
  rcases hm with ⟨rfl, rfl⟩ | ⟨rfl, rfl⟩ <;> cases hr <;> trivial

example : ∃ res, Shuffler.shuffle g0 toShuffler (npRandint g0) (fun _ => rand 1) 1 [0] (registerAll drawn []) 2 = .ok res ∧
    ∃ rows a own i v, res.get? "solar" = some rows ∧ RowsArray rows 2 a ∧
      Own g0 toShuffler ((fun _ : ℕ => rand 1) i) (.raw [[some 1, some 2], [some 3, some 4]]) own ∧
      (Factory.mk 2 2).create (.array a) = .ok v ∧ Follows 2 2 own v := by
  have h : Shuffler.shuffle g0 toShuffler (npRandint g0) (fun _ => rand 1) 1 [0] (registerAll drawn []) 2 =
      .ok [("solar", [[some 1, some 2], [some 1, some 2]])] := ok_of_toOption (by decide +kernel)
  exact ⟨_, h, C99_partial g0 toShuffler (sampler := npRandint g0) (C57_randint g0_lawful) (fun _ => rand 1) (size := 1)
    (by decide) drawn drawn_noBlank (order := [0]) (by decide +kernel) h drawn_last raw_full⟩

/-- a sampler that draws the last row -/
def lastRow : Sampler ℕ := fun _ high n r =>
  if high ≤ 0 then (.error .valueError, r) else (.ok (List.replicate n (high - 1)), r)

theorem lastRow_inRange : DrawsInRange lastRow := by
  intro n nb r ix r' h
  unfold lastRow at h
  split at h
  · cases h
  · obtain ⟨rfl, rfl⟩ := Prod.mk.inj h |>.imp_left Except.ok.inj
    refine ⟨by simp, fun z hz => ?_⟩
    obtain ⟨-, rfl⟩ := List.mem_replicate.mp hz
    omega

/-- **C99** refuted: for a pipeline whose result has a column without name beside `to_shuffler`, the series that a study
stores can follow this column, which is no row of what was registered -/
theorem C99_refuted : ∃ res v, DrawsInRange lastRow ∧
    Last [(toShuffler, .pipeline "x" (.multi blank) 0)] "x" (.pipe blank 0) ∧
    Shuffler.shuffle g0 toShuffler lastRow (fun _ => rand 0) 1 [0]
      (registerAll [(toShuffler, .pipeline "x" (.multi blank) 0)] []) 1 = .ok res ∧
    res.get? "x" = some [[some 666]] ∧ (Factory.mk 1 1).create (.array ⟨[1, 1], [666], rfl⟩) = .ok v ∧
    ∀ own, Own g0 toShuffler (rand 0) (.pipe blank 0) own → FullRows 1 own ∧ ¬ Follows 1 1 own v := by
  refine ⟨[("x", [[some 666]])], _, lastRow_inRange, ?_, ok_of_toOption (by decide +kernel), rfl, rfl, ?_⟩
  · refine ⟨[], toShuffler, _, [], rfl, rfl, ?_, .pipeline (.multi _), by simp⟩
    exact ⟨_, _, rfl, by
      intro n hn
      simp only [Plug.inputs, Dict.keys, List.map_cons, List.map_nil, List.mem_singleton] at hn
      subst hn
      exact ⟨_, _, List.mem_cons_self⟩, by decide +kernel⟩
  · have hown : ∀ own, Own g0 toShuffler (rand 0) (.pipe blank 0) own → own = [[some 1]] := by
      intro own ho
      obtain ⟨t, s, run, hrows⟩ : ∃ t s, toShuffler.callPipe g0 0 (.multi blank, rand 0) = (.ok t, s) ∧
          List.Forall₂ (fun (c : (Cell × String) × List Val) row => row = c.2)
            (t.cols.filter fun c => c.1.2 = "to_shuffler") own := by
        cases ho with
        | pipe r _ h => exact ⟨_, _, r, h⟩
      have h : (toShuffler.callPipe g0 0 (.multi blank, rand 0)).1.toOption =
        some ⟨rangeIndex 1, [((.num 0, "to_shuffler"), [some 1]), ((.num 0, ""), [some 666])]⟩ := by decide +kernel
      rw [run] at h
      obtain rfl := Option.some.inj h
      have e : (List.filter (fun c : (Cell × String) × List Val => decide (c.1.2 = "to_shuffler"))
        [((.num 0, "to_shuffler"), [some 1]), ((.num 0, ""), [some 666])]) = [((.num 0, "to_shuffler"), [some 1])] := by
        decide +kernel
      rw [e] at hrows
      rcases hrows with _ | ⟨h1, h2⟩
      cases h2
      rw [h1]
    intro own ho
    obtain rfl := hown own ho
    refine ⟨by simp [FullRows], fun hF => ?_⟩
    obtain ⟨row, hrow, hq⟩ := hF 0 (by decide)
    obtain ⟨q, hq1, hq2⟩ := hq 0 (by decide)
    rw [List.mem_singleton] at hrow
    subst hrow
    have : q = 1 := by simpa using hq1.symm
    subst this
    revert hq2
    decide +kernel

end Hadar.Props
