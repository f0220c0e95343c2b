import Verif.Proofs.Titles
import Verif.Props.ViewerStack

/-!
# Titles of charts (C105)
-/

namespace Hadar.Props

open Spec Viewer

/-- C105 (partial): charts with the same title, whose names have no blank, are of the same sort, and show the same
element of the same node at the same time step or in the same scenario. Missing: the network, the column of monotone
and gaussian charts, the scenario of stacks (`C105_refuted`); names with blanks (`C105_blank_refuted`). -/
theorem C105_partial {a a' : Analyzer} {c c' : Chart} {s : String} (hp : PlainNames c) (hp' : PlainNames c')
    (h : c.title a = .ok s) (h' : c'.title a' = .ok s) : told c = told c' :=
  (reads_title hp h).inj (reads_title hp' h')

/-- C105: a title depends on nothing else than what it tells, but for the matrix of margins, whose title depends on the
results -/
theorem C105_same {a a' : Analyzer} {c c' : Chart} (h : told c = told c') (hm : (told c).sort ≠ .matrix) :
    c.title a = c'.title a' := by
  cases c <;> cases c' <;> simp [told] at h hm
  case timeline.timeline x y =>
    obtain ⟨g, d, κ, n, c⟩ := x
    obtain ⟨g', d', κ', n', c'⟩ := y
    obtain ⟨⟨h1, h2⟩, h3, h4⟩ := h
    dsimp only at h1 h2 h3
    subst h1 h2 h3
    cases κ <;> simp [toldColumn] at h4 <;> simp [Chart.title, Item.timelineTitle, h4]
  case monotone.monotone x t k y t' k' =>
    obtain ⟨⟨h1, h2⟩, h3, rfl, rfl⟩ := h
    simp [Chart.title, Item.monotoneTitle, Item.monotoneTime, Item.monotoneScn, h1, h2, h3]
  case gaussian.gaussian x t k y t' k' =>
    obtain ⟨⟨h1, h2⟩, h3, rfl, rfl⟩ := h
    simp [Chart.title, Item.gaussianTitle, Item.gaussianAbout, h1, h2, h3]
  case candles.candles => simp [Chart.title, h]
  case stack.stack => simp [Chart.title, h]
  case map.map => simp [Chart.title, h]

/-- C105: a matrix of margins that is drawn announces the share of margins that are not negative, in percents cut to
an integer; never 100 %, as the matrix of a network that is always adequate is not drawn -/
theorem C105_matrix {a : Analyzer} {g : String} {rac : NdArray} {s : String} (hr : a.getRac g = .ok rac)
    (h : (Chart.racMatrix g).title a = .ok s) : ∃ k : ℕ, s = "RAC Matrix " ++ toString k ++ " % passed" ∧
      k * rac.data.length ≤ 100 * rac.data.countP (0 ≤ ·) ∧ 100 * rac.data.countP (0 ≤ ·) < (k + 1) * rac.data.length ∧
      k < 100 := by
  simp only [Chart.title, Viewer.racMatrix, hr, bind, Except.bind] at h
  split at h
  · cases h
  next hne =>
    cases hm : matrixChart rac with
    | error e => simp [hm, Except.map] at h
    | ok m =>
      simp only [hm, Except.map, pure, Except.pure, Except.ok.injEq] at h
      subst h
      have hlen : 0 < rac.data.length := Nat.pos_of_ne_zero hne
      have hpos : (0 : ℚ) < rac.data.length := by exact_mod_cast hlen
      have hlt : rac.data.countP (0 ≤ ·) < rac.data.length := by
        refine lt_of_le_of_ne List.countP_le_length fun e => ?_
        rw [List.countP_eq_length] at e
        have := sdt_refused (x := rac.data) (.inr fun q hq => by simpa using e q hq)
        simp [matrixChart, this, bind, Except.bind] at hm
      rw [← List.countP_eq_length_filter]
      generalize rac.data.countP (0 ≤ ·) = n at hlt ⊢
      generalize rac.data.length = l at hlt hpos hlen ⊢
      obtain ⟨k, hk⟩ : ∃ k : ℕ, ((n : ℚ) / l * 100).floor = k :=
        ⟨_, (Int.toNat_of_nonneg (Rat.le_floor_iff.2 (by positivity))).symm⟩
      have h1 : (k : ℚ) ≤ n / l * 100 := by
        have := Rat.floor_le ((n : ℚ) / l * 100)
        rw [hk] at this
        exact_mod_cast this
      have h2 : (n : ℚ) / l * 100 < k + 1 := by
        have := Rat.lt_floor_add_one ((n : ℚ) / l * 100)
        rw [hk] at this
        exact_mod_cast this
      rw [div_mul_eq_mul_div, le_div_iff₀ hpos] at h1
      rw [div_mul_eq_mul_div, div_lt_iff₀ hpos] at h2
      have h3 : k * l ≤ n * 100 := by exact_mod_cast h1
      have h4 : n * 100 < (k + 1) * l := by exact_mod_cast h2
      refine ⟨k, by unfold racTitle; rw [hk]; rfl, by omega, by omega, ?_⟩
      by_contra hc
      have : 100 * l ≤ k * l := Nat.mul_le_mul_right _ (by omega)
      omega

/-! ### Titles that do not tell charts apart -/

def namesakeCalls : List Call :=
  [.studyNetwork "x", .netNode 0 "a", .nodeConsumption 0 "load" (.num 10) (.array ⟨[2, 1], [1, 2], rfl⟩),
   .nodeConsumption 0 "load on node a" (.num 10) (.num 3),
   .studyNetwork "y", .netNode 1 "a", .nodeConsumption 1 "load" (.num 10) (.num 5),
   .netNode 1 "a on node a", .nodeConsumption 1 "load" (.num 10) (.num 7)]

/-- two networks with a node and a load of the same names, horizon 1, 2 scenarios -/
def namesake : Study := ((World.start 1 2).run namesakeCalls).study

theorem namesake_built : Built namesake := ⟨1, 2, namesakeCalls, rawCalls_of (by decide +kernel), rfl⟩

def namesakeVals : Vals := fun _ v => match v with
  | .lol .. => 1
  | _ => 0

theorem namesake_init : ∃ a, Analyzer.init (fun _ _ _ => .nan) namesake (resultAll namesake namesakeVals ⟨[], [], 0, 0⟩) = .ok a :=
  init_total namesake_built (mirrors_result (Built.inv namesake_built) _ _) _ (by unfold CompleteConverters; decide +kernel)
    (by decide +kernel) (by decide +kernel)

theorem namesake_chart {α : Type} {a : Analyzer} {f : Analyzer → Except PyErr α} {x : Except PyErr α}
    (ha : Analyzer.init (fun _ _ _ => .nan) namesake (resultAll namesake namesakeVals ⟨[], [], 0, 0⟩) = .ok a)
    (h : charted namesake namesakeVals f = x) : f a = x := by
  rw [← h]
  unfold charted
  rw [ha]
  rfl

/-- C105 refuted: charts of the same title that show different values. The title does not tell the network, the column
of a monotone chart, the scenario of a stack. -/
theorem C105_refuted : ∃ s r junk a, Built s ∧ Mirrors s r ∧ Analyzer.init junk s r = .ok a ∧
    (∃ x y : Item, (Chart.timeline x).title a = (Chart.timeline y).title a ∧
      ∃ p q, x.timeline a = .ok p ∧ y.timeline a = .ok q ∧ p ≠ q) ∧
    (∃ x y : Item, (Chart.monotone x (some 0) none).title a = (Chart.monotone y (some 0) none).title a ∧ x.network = y.network ∧
      ∃ p q, x.monotone a (some 0) none = .ok p ∧ y.monotone a (some 0) none = .ok q ∧ p ≠ q) ∧
    ∃ g d, (Chart.stack g d 0 "used" "asked").title a = (Chart.stack g d 1 "used" "asked").title a ∧
      ∃ p q, Viewer.stack a highestFirst g d 0 "used" "asked" = .ok p ∧ Viewer.stack a highestFirst g d 1 "used" "asked" = .ok q ∧
        p ≠ q := by
  obtain ⟨a, ha⟩ := namesake_init
  refine ⟨namesake, _, _, a, namesake_built, mirrors_result (Built.inv namesake_built) _ _, ha,
    ⟨⟨"x", "a", .cons, "load", "given"⟩, ⟨"y", "a", .cons, "load", "given"⟩, rfl,
      [(.num 0, [0]), (.num 1, [1])], [(.num 0, [4]), (.num 1, [4])], ?_, ?_, by decide +kernel⟩,
    ⟨⟨"x", "a", .cons, "load", "given"⟩, ⟨"x", "a", .cons, "load", "asked"⟩, rfl, rfl,
      [(0, 1), (100, 0)], [(0, 2), (100, 1)], ?_, ?_, by decide +kernel⟩,
    "x", "a", rfl, ⟨[], [(.str "load on node a", [4]), (.str "load", [1])]⟩, ⟨[], [(.str "load on node a", [5]), (.str "load", [2])]⟩, ?_, ?_,
    by decide +kernel⟩
  · exact namesake_chart ha (f := fun a => Item.timeline a _) (by decide +kernel)
  · exact namesake_chart ha (f := fun a => Item.timeline a _) (by decide +kernel)
  · exact namesake_chart ha (f := fun a => Item.monotone a _ _ _) (by decide +kernel)
  · exact namesake_chart ha (f := fun a => Item.monotone a _ _ _) (by decide +kernel)
  · exact namesake_chart ha (f := fun a => Viewer.stack a _ _ _ _ _ _) (by decide +kernel)
  · exact namesake_chart ha (f := fun a => Viewer.stack a _ _ _ _ _ _) (by decide +kernel)

/-- C105 refuted: with blanks in names, the same title for elements of different nodes of a network -/
theorem C105_blank_refuted (a : Analyzer) : ∃ x y : Item, x.network = y.network ∧ x.node ≠ y.node ∧
    x.name ≠ y.name ∧ (Chart.timeline x).title a = (Chart.timeline y).title a :=
  ⟨⟨"n", "a", .cons, "load on node b", "given"⟩, ⟨"n", "b on node a", .cons, "load", "given"⟩, rfl, by decide, by decide, by
    simp only [Chart.title, Item.timelineTitle]; decide⟩

/-! ### Concrete cases -/

example : (Chart.monotone ⟨"elec", "b", .stor, "cell", "flow"⟩ none (some (-1))).title anAnalyzer =
    .ok "Monotone storage of cell on node b for scn=-1" := rfl

example : (Chart.map "elec" 12 0).title anAnalyzer = .ok "Exchange map at t=12 scn=0" := rfl

example {s : Option ℤ} {t : Option ℤ} {d n c : String} (hn : OneWord n) (hd : OneWord d) (hc : OneWord c)
    (h : (Chart.gaussian ⟨"elec", d, .prod, n, c⟩ t s).title anAnalyzer =
      (Chart.gaussian ⟨"elec", "b", .prod, "nuke", "used"⟩ none (some 3)).title anAnalyzer) :
    n = "nuke" ∧ d = "b" ∧ t = none ∧ s = some 3 := by
  have := C105_partial (c := .gaussian ⟨"elec", d, .prod, n, c⟩ t s)
    (c' := .gaussian ⟨"elec", "b", .prod, "nuke", "used"⟩ none (some 3)) ⟨hn, hd, hc⟩
    (by unfold PlainNames; decide) (h.trans rfl) (a' := anAnalyzer) rfl
  simpa [told] using this

example : (Chart.stack "elec" "b" 0 "used" "asked").title anAnalyzer = (Chart.stack "gas" "b" 1 "avail" "given").title anAnalyzer :=
  C105_same rfl (by decide)

/-- margins of 5 and -10: half of them pass -/
example : ∃ a, Analyzer.init (fun _ _ _ => .nan) short (resultAll short shortVals ⟨[], [], 0, 0⟩) = .ok a ∧
    (Chart.racMatrix "n").title a = .ok "RAC Matrix 50 % passed" := by
  have h : charted short shortVals (fun a => (Chart.racMatrix "n").title a) = .ok "RAC Matrix 50 % passed" := by decide +kernel
  rcases charted_cases h with ⟨e, _, h1⟩ | ⟨a, h1, h2⟩
  · cases h1
  · exact ⟨a, h1, h2⟩

end Hadar.Props
