import Verif.Proofs.Asking

/-!
# C136: which queries of the analyzer are refused, and how
-/

namespace Hadar.Props

open Hadar Spec

/-- C136 (calls): whatever the tables, the first call that asks for a filter already given, or gives a slice
without end or of step zero, raises at once; as long as there is none, an incomplete query returns a selector
with one index by filter -/
theorem C136_calls (a : Analyzer) {g : IndexArg} {calls : List (IndexKind × IndexArg)}
    (hf : SlicesFit ((.network, g) :: calls.take 4)) :
    (∀ e, Stops [.network] (calls.take 4) e → a.ask g calls = .error e) ∧
    ((∀ e, ¬ Stops [.network] (calls.take 4) e) → calls.length < 4 →
      ∃ q, a.ask g calls = .ok (.selector q) ∧
        q.indexes.map (fun x => x.kind) = .network :: calls.map Prod.fst) := by
  obtain ⟨x, hx⟩ := (make_fault (k := .network) (arg := g)
    fun a b c h => hf _ a b c (by rw [h]; exact List.mem_cons_self)).2 (by
      cases g with
      | slice a b c => cases hf _ a b c List.mem_cons_self <;> rename_i h <;> cases h
      | _ => rfl)
  have hxk := Index.make_kind hx
  have hco := chain_outcome (a := a) (calls := calls) (ix := [x]) ⟨x, List.mem_singleton_self x, hxk⟩
    (by simp) (by simp) (fun k a b c h => hf k a b c (List.mem_cons_of_mem _ h))
  simp only [List.map_cons, List.map_nil, hxk, List.length_singleton, Nat.reduceSub] at hco
  rw [ask_network hx]
  refine ⟨hco.1, fun h hl => ?_⟩
  obtain ⟨xs, h1, h2, h3, h4⟩ := hco.2 h
  refine ⟨_, h3 hl, ?_⟩
  rw [List.take_of_length_le (by omega)] at h1
  simp only [List.singleton_append, List.map_cons, hxk]
  refine congrArg _ ?_
  clear h2 h3 h4 hco h hl hf
  induction h1 with
  | nil => rfl
  | cons h _ ih => rw [List.map_cons, List.map_cons, ih, Index.make_kind h]

/-- C136: for a study built with the API and an answer that mirrors it, the filters and the rows of the study
say which queries `analyzer.network(g).f(..)...` are refused, and which exception is raised -/
theorem C136 {junk : Junk} {s : Study} {r : Result} {a : Analyzer} (hb : Built s)
    (hm : Mirrors s r) (ha : Analyzer.init junk s r = .ok a) {g : IndexArg}
    {calls : List (IndexKind × IndexArg)} (hf : SlicesFit ((.network, g) :: calls.take 4))
    (hst : StartsGiven (calls.take 4))
    (hr : ∀ c ∈ calls, c.1.isElement = true → Reliable s c.1) (e : PyErr) :
    a.ask g calls = .error e ↔ Refused s r g calls e := by
  have hg : ∀ a b c, g ≠ .slice a b c := by
    rintro a b c rfl
    cases hf _ a b c List.mem_cons_self <;> rename_i h <;> cases h
  obtain ⟨x, hx⟩ := (make_fault (k := .network) (arg := g) fun a b c h => absurd h (hg a b c)).2 (by
      cases g with
      | slice a b c => exact absurd rfl (hg a b c)
      | _ => rfl)
  have hxk := Index.make_kind hx
  have hco := chain_outcome (a := a) (calls := calls) (ix := [x]) ⟨x, List.mem_singleton_self x, hxk⟩
    (by simp) (by simp) (fun k a b c h => hf k a b c (List.mem_cons_of_mem _ h))
  simp only [List.map_cons, List.map_nil, hxk, List.length_singleton, Nat.reduceSub] at hco
  rw [ask_network hx]
  by_cases hstop : ∃ e', Stops [.network] (calls.take 4) e'
  · obtain ⟨e', he'⟩ := hstop
    rw [hco.1 e' he']
    constructor
    · intro h
      cases h
      exact .call he'
    · intro h
      cases h with
      | call h => rw [← hco.1 e h, hco.1 e' he']
      | table h _ _ _ _ => exact absurd he' (h e')
      | beyond h _ _ _ _ => exact absurd he' (h e')
  · have hno : ∀ e, ¬ Stops [.network] (calls.take 4) e := fun e he => hstop ⟨e, he⟩
    obtain ⟨xs, h1, h2, h3, h4⟩ := hco.2 hno
    by_cases hl : calls.length < 4
    · rw [h3 hl]
      constructor
      · intro h; cases h
      · intro h
        cases h with
        | call h => exact absurd h (hno e)
        | table _ h4 _ _ _ => omega
        | beyond _ h4 _ _ _ => omega
    · rw [h4 (by omega)]
      have hlen : ([x] ++ xs).length = 5 := by
        have := h1.length_eq
        rw [List.length_take] at this
        rw [List.length_append, List.length_singleton]
        omega
      have hF : List.Forall₂ (fun c x => Index.make c.1 c.2 = .ok x) ((.network, g) :: calls.take 4) ([x] ++ xs) :=
        .cons hx h1
      have hbg : BoundsGiven ((.network, g) :: calls.take 4) := by
        intro k y b c hmem
        rcases List.mem_cons.mp hmem with h | hmem
        · cases h
          exact absurd rfl (hg _ _ _)
        · have hy := hst k y b c hmem
          refine ⟨hy, ?_⟩
          obtain ⟨z, _, hz⟩ := Forall₂.exists_left h1 hmem
          cases b with
          | some b => rfl
          | none =>
            exfalso
            have := (make_fault (k := k) (arg := .slice y none c) (by
              intro a' b' c' h
              cases h
              exact hf k _ _ _ (List.mem_cons_of_mem _ hmem))).1 .typeError (by simp [argFault, hy])
            rw [this] at hz
            cases hz
      have hexists : ∃ kind, kind ∈ (calls.take 4).map Prod.fst ∧ kind.isElement = true := by
        obtain ⟨y, hy, hye, _⟩ := filter_complete (a := a) hlen h2
        rcases List.mem_cons.mp hy with rfl | hy
        · rw [hxk] at hye; cases hye
        · obtain ⟨c, hc, hmc⟩ := forall₂_mem_right h1 hy
          exact ⟨c.1, List.mem_map_of_mem hc, by rw [← Index.make_kind hmc]; exact hye⟩
      have key : ∀ {kind}, kind ∈ (calls.take 4).map Prod.fst → kind.isElement = true → ∀ e,
          a.filter ([x] ++ xs) = .error e ↔ NoTable s r g (calls.take 4) kind e := by
        intro kind hkc hke e
        refine filter_fault hb hm ha hF hlen h2 hkc hke ?_ hg hbg e
        obtain ⟨c, hc, rfl⟩ := List.mem_map.mp hkc
        exact hr c (List.mem_of_mem_take hc) hke
      obtain ⟨kind, hkc, hke⟩ := hexists
      cases hfl : a.filter ([x] ++ xs) with
      | error e' =>
        have hnt := (key hkc hke e').mp hfl
        constructor
        · intro h
          cases h
          exact .table hno (by omega) hkc hke hnt
        · intro h
          cases h with
          | call h => exact absurd h (hno e)
          | table _ _ h1 h2 h3 => exact congrArg _ (Except.error.inj (hfl.symm.trans ((key h1 h2 e).mpr h3)))
          | beyond _ _ h1 h2 h3 => exact absurd ((key h1 h2 e').mp hfl) (h3 e')
      | ok t =>
        have hnt : ∀ e, ¬ NoTable s r g (calls.take 4) kind e := by
          intro e h
          rw [(key hkc hke e).mpr h] at hfl
          cases hfl
        by_cases h40 : calls.length = 4
        · simp only [h40, if_true]
          constructor
          · intro h; cases h
          · intro h
            cases h with
            | call h => exact absurd h (hno e)
            | table _ _ h1 h2 h3 => rw [(key h1 h2 e).mpr h3] at hfl; cases hfl
            | beyond _ h _ _ _ => omega
        · simp only [h40, if_false]
          constructor
          · intro h
            cases h
            exact .beyond hno (by omega) hkc hke hnt
          · intro h
            cases h with
            | call h => exact absurd h (hno e)
            | table _ _ h1 h2 h3 => rw [(key h1 h2 e).mpr h3] at hfl; cases hfl
            | beyond _ _ _ _ _ => rfl

/-! ### Concrete cases -/

/-- `analyzer.network("elec").node("a").production("nuke").time(slice(1, 2)).scn((0,))` -/
def oneCellCalls : List (IndexKind × IndexArg) :=
  [(.node, .list [.str "a"]), (.prod, .one (.str "nuke")), (.time, .slice (some 1) (some 2) none), (.scn, .tuple [.num 0])]

theorem slicesFit_of {filters : List (IndexKind × IndexArg)} (h : ∀ p ∈ filters, p.1 = .time ∨ p.1 = .scn ∨
    (match p.2 with | .slice _ _ _ => false | _ => true) = true) : SlicesFit filters := by
  intro k a b c hm
  rcases h _ hm with e | e | e
  · exact .inl e
  · exact .inr e
  · cases e

theorem startsGiven_of {filters : List (IndexKind × IndexArg)} (h : ∀ p ∈ filters,
    (match p.2 with | .slice none _ _ => false | _ => true) = true) : StartsGiven filters := by
  intro k a b c hm
  cases a with
  | none => cases h _ hm
  | some _ => rfl

/-- no call of a list of distinct kinds stops, when filters alone are fine -/
theorem goes_on : ∀ e, ¬ Stops [.network] oneCellCalls e := by
  intro e h
  unfold oneCellCalls at h
  cases h with
  | again h => simp [Taken, IndexKind.isElement] at h
  | arg _ h => cases h
  | later _ _ h =>
    cases h with
    | again h => simp [Taken, IndexKind.isElement] at h
    | arg _ h => cases h
    | later _ _ h =>
      cases h with
      | again h => simp [Taken, IndexKind.isElement] at h
      | arg _ h => simp [argFault] at h
      | later _ _ h =>
        cases h with
        | again h => simp [Taken, IndexKind.isElement] at h
        | arg _ h => cases h
        | later _ _ h => cases h

/-- a slice of one position and a list of one name are single values too: `IndexError` -/
example : anAnalyzer.ask (.one (.str "elec")) oneCellCalls = .error .indexError := by
  refine (C136 anStudy_built anResult_mirrors anAnalyzer_init (slicesFit_of (by decide)) (startsGiven_of (by decide))
    (fun _ _ _ => anStudy_reliable _) _).mpr (.table (kind := .prod) goes_on (by decide) (by decide) rfl ?_)
  refine .one ?_ [("cost", .num 20), ("avail", .num 16), ("used", .num 4),
      ("name", .str "nuke"), ("node", .str "a"), ("network", .str "elec"), ("t", .num 1),
      ("scn", .num 0)] (by decide +kernel) ?_
  · intro c hc
    simp only [oneCellCalls, List.take, List.mem_cons, List.not_mem_nil, or_false] at hc
    rcases hc with rfl | rfl | rfl | rfl | rfl
    · exact .one _
    · exact .list _
    · exact .one _
    · refine .slice _ _ _ 1 ?_
      intro j
      simp [InRange]
      omega
    · exact .tuple _
  · simp [oneCellCalls, Matches, Selects, Row.at, Dict.get?, IndexKind.column, InSlice, InRange, extent,
      show anStudy.horizon = 2 by decide +kernel]
    exact ⟨1, by norm_num⟩

/-- a network the study does not have: nothing is refused, the answer is empty -/
example (e : PyErr) : anAnalyzer.ask (.one (.str "water")) oneCellCalls ≠ .error e := by
  intro h
  have := (C136 anStudy_built anResult_mirrors anAnalyzer_init (slicesFit_of (by decide)) (startsGiven_of (by decide))
    (fun _ _ _ => anStudy_reliable _) _).mp h
  clear h
  cases this with
  | call h => exact goes_on e h
  | @table kind _ _ _ hk hke ht =>
    have ek : kind = .prod := by
      simp only [oneCellCalls, List.take, List.map, List.mem_cons, List.not_mem_nil, or_false] at hk
      rcases hk with rfl | rfl | rfl | rfl
      · cases hke
      · rfl
      · cases hke
      · cases hke
    subst ek
    cases ht with
    | converters h _ => rcases h with h | h <;> cases h
    | network _ h => cases h
    | one _ row hr hm =>
      have h0 := hm _ List.mem_cons_self
      simp only [Selects, IndexKind.column] at h0
      revert row
      have : ∀ row ∈ tableRows anStudy anResult .prod, Row.at row "network" ≠ .str "water" := by decide +kernel
      intro row hr _ h0
      exact this row hr h0
  | beyond _ h4 _ _ _ => exact absurd h4 (by decide)

/-- `analyzer.network("elec").node("a").node("b")`, for any analyzer -/
example (a : Analyzer) : a.ask (.one (.str "elec")) [(.node, .one (.str "a")), (.node, .one (.str "b"))] =
    .error .attributeError :=
  (C136_calls a (slicesFit_of (by decide))).1 _ (.later (by simp [Taken, IndexKind.isElement]) rfl (.again (by simp [Taken])))

/-- `analyzer.network("elec").time(slice(1, None))` -/
example (a : Analyzer) : a.ask (.one (.str "elec")) [(.time, .slice (some 1) none none)] = .error .typeError :=
  (C136_calls a (slicesFit_of (by decide))).1 _ (.arg (by simp [Taken, IndexKind.isElement]) rfl)

end Hadar.Props
