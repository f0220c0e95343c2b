import Verif.Conform.Chain
import Verif.Proofs.LPCheck
import Verif.Props.Tables

/-!
# What every optimal answer of the solver says, computed

Multipliers of the constraints of a linear program (given, and checked) bound its objective. Where the bound is reached, all optimal
answers give some variables the same value; the constraints then give the others. So the result of `solve_lp` can be computed for
studies that have one optimal dispatch, without a solver.
-/

namespace Hadar.Conform

open Hadar Hadar.Spec Hadar.Props

/-! ### A lower bound of the objective -/

/-- the variables and their bounds -/
def varsOf (log : List Cmd) : List (Var × ℚ × ℚ) := log.filterMap fun c => match c with
  | .numVar v lb ub => some (v, lb, ub)
  | _ => none

/-- the constraints that are equalities -/
def equations (log : List Cmd) : List (RowId × ℚ) := log.filterMap fun c => match c with
  | .constraint r lo hi => if lo = hi then some (r, lo) else none
  | _ => none

/-- the objective minus the constraints, each times its multiplier -/
def form (log : List Cmd) (y : RowId → ℚ) : List (Var × ℚ) :=
  Cmd.objCoefs log ++ (equations log).flatMap fun e => (Cmd.coefs log e.1).map fun p => (p.1, - y e.1 * p.2)

/-- the coefficient of a variable in a form -/
def coefIn (l : List (Var × ℚ)) (v : Var) : ℚ := ((l.filter fun p => p.1 = v).map Prod.snd).sum

/-- where a variable stands to lower a form: at its lower bound if its coefficient is positive, at its upper bound otherwise -/
def best (c : ℚ) (p : Var × ℚ × ℚ) : ℚ := if 0 ≤ c then p.2.1 else p.2.2

/-- the bound given by multipliers -/
def bound (log : List Cmd) (y : RowId → ℚ) : ℚ :=
  ((varsOf log).map fun p => coefIn (form log y) p.1 * best (coefIn (form log y) p.1) p).sum + ((equations log).map fun e => y e.1 * e.2).sum

/-- the answer `x` reaches the bound given by the multipliers `y` -/
def Certified (log : List Cmd) (x : Var → ℚ) (y : RowId → ℚ) : Prop :=
  log.all (Cmd.check log x) = true ∧ ((varsOf log).map Prod.fst).Nodup ∧ (∀ p ∈ form log y, p.1 ∈ (varsOf log).map Prod.fst) ∧
    Cmd.objective log x = bound log y

instance (log : List Cmd) (x : Var → ℚ) (y : RowId → ℚ) : Decidable (Certified log x y) := by unfold Certified; infer_instance

theorem value_append (a b : List (Var × ℚ)) (x : Var → ℚ) : Cmd.value (a ++ b) x = Cmd.value a x + Cmd.value b x := by
  simp [Cmd.value]

theorem value_scale (c : ℚ) (a : List (Var × ℚ)) (x : Var → ℚ) : Cmd.value (a.map fun p => (p.1, c * p.2)) x = c * Cmd.value a x := by
  induction a with
  | nil => simp [Cmd.value]
  | cons p l ih =>
    simp only [Cmd.value, List.map_cons, List.sum_cons] at ih ⊢
    rw [ih]; ring

theorem value_form {log : List Cmd} {x : Var → ℚ} (hx : Cmd.Feasible log x) (y : RowId → ℚ) :
    Cmd.objective log x = Cmd.value (form log y) x + ((equations log).map fun e => y e.1 * e.2).sum := by
  have key : ∀ l : List (RowId × ℚ), (∀ e ∈ l, Cmd.value (Cmd.coefs log e.1) x = e.2) →
      Cmd.value (l.flatMap fun e => (Cmd.coefs log e.1).map fun p => (p.1, - y e.1 * p.2)) x = - (l.map fun e => y e.1 * e.2).sum := by
    intro l
    induction l with
    | nil => intro _; simp [Cmd.value]
    | cons e l ih =>
      intro h
      rw [List.flatMap_cons, value_append, value_scale, ih fun e he => h e (List.mem_cons_of_mem _ he), h e (List.mem_cons_self ..)]
      simp; ring
  have h := key (equations log) (by
    intro e he
    unfold equations at he
    obtain ⟨c, hc, e1⟩ := List.mem_filterMap.mp he
    cases c with
    | constraint r lo hi =>
      simp only at e1
      split_ifs at e1 with h0
      cases e1
      subst h0
      have := hx.2 _ _ _ hc
      exact le_antisymm this.2 this.1
    | _ => simp at e1)
  unfold form Cmd.objective
  rw [value_append, h]
  ring

theorem value_group (V : List Var) (hV : V.Nodup) (l : List (Var × ℚ)) (hl : ∀ p ∈ l, p.1 ∈ V) (x : Var → ℚ) :
    Cmd.value l x = (V.map fun v => coefIn l v * x v).sum := by
  induction l with
  | nil => simp [Cmd.value, coefIn]
  | cons p l ih =>
    have e : Cmd.value (p :: l) x = p.2 * x p.1 + Cmd.value l x := by simp [Cmd.value]
    rw [e, ih fun q hq => hl q (List.mem_cons_of_mem _ hq)]
    have h1 : ∀ v, coefIn (p :: l) v = (if p.1 = v then p.2 else 0) + coefIn l v := by
      intro v
      unfold coefIn
      by_cases h : p.1 = v <;> simp [h]
    have h2 : (V.map fun v => coefIn (p :: l) v * x v).sum =
        (V.map fun v => (if p.1 = v then p.2 else 0) * x v).sum + (V.map fun v => coefIn l v * x v).sum := by
      rw [← List.sum_map_add]
      congr 1
      apply List.map_congr_left
      intro v _
      rw [h1]; ring
    have h3 : ∀ V : List Var, V.Nodup → p.1 ∈ V → (V.map fun v => (if p.1 = v then p.2 else 0) * x v).sum = p.2 * x p.1 := by
      intro V
      induction V with
      | nil => intro _ h; simp at h
      | cons v V ih =>
        intro hn hm
        rw [List.nodup_cons] at hn
        rw [List.map_cons, List.sum_cons]
        rcases List.mem_cons.mp hm with h | h
        · rw [if_pos h, h]
          have : (V.map fun w => (if v = w then p.2 else 0) * x w).sum = 0 := by
            apply List.sum_eq_zero
            intro q hq
            obtain ⟨w, hw, rfl⟩ := List.mem_map.mp hq
            rw [if_neg (by rintro rfl; exact hn.1 hw)]; ring
          rw [this]; ring
        · rw [if_neg (by rintro h'; exact hn.1 (h' ▸ h)), ih hn.2 h]; ring
    rw [h2, h3 V hV (hl p (List.mem_cons_self ..))]

theorem varsOf_bounds {log : List Cmd} {x : Var → ℚ} (hx : Cmd.Feasible log x) {p : Var × ℚ × ℚ} (hp : p ∈ varsOf log) :
    p.2.1 ≤ x p.1 ∧ x p.1 ≤ p.2.2 := by
  unfold varsOf at hp
  obtain ⟨c, hc, e⟩ := List.mem_filterMap.mp hp
  cases c with
  | numVar v lb ub =>
    simp only [Option.some.injEq] at e
    subst e
    exact hx.1.1 _ _ _ hc
  | _ => simp at e

theorem best_le (c x : ℚ) (p : Var × ℚ × ℚ) (h : p.2.1 ≤ x ∧ x ≤ p.2.2) : c * best c p ≤ c * x := by
  unfold best
  split_ifs with h0
  · exact mul_le_mul_of_nonneg_left h.1 h0
  · exact mul_le_mul_of_nonpos_left h.2 (le_of_lt (not_le.mp h0))

theorem objective_split {log : List Cmd} {x : Var → ℚ} {y : RowId → ℚ} (hn : ((varsOf log).map Prod.fst).Nodup)
    (hf : ∀ p ∈ form log y, p.1 ∈ (varsOf log).map Prod.fst) (hx : Cmd.Feasible log x) :
    Cmd.objective log x = bound log y +
      ((varsOf log).map fun p => coefIn (form log y) p.1 * x p.1 - coefIn (form log y) p.1 * best (coefIn (form log y) p.1) p).sum := by
  rw [value_form hx y, value_group _ hn _ hf, List.map_map]
  unfold bound
  have : ∀ V : List (Var × ℚ × ℚ), (V.map ((fun v => coefIn (form log y) v * x v) ∘ Prod.fst)).sum =
      (V.map fun p => coefIn (form log y) p.1 * best (coefIn (form log y) p.1) p).sum +
      (V.map fun p => coefIn (form log y) p.1 * x p.1 - coefIn (form log y) p.1 * best (coefIn (form log y) p.1) p).sum := by
    intro V
    induction V with
    | nil => simp
    | cons p V ih => simp only [List.map_cons, List.sum_cons, Function.comp] at ih ⊢; rw [ih]; ring
  rw [this]; ring

theorem sum_nonneg_of {l : List ℚ} (h : ∀ q ∈ l, 0 ≤ q) : 0 ≤ l.sum := by
  induction l with
  | nil => simp
  | cons a l ih =>
    rw [List.sum_cons]
    linarith [h a (List.mem_cons_self ..), ih fun q hq => h q (List.mem_cons_of_mem _ hq)]

theorem certified_optimal {log : List Cmd} {x : Var → ℚ} {y : RowId → ℚ} (h : Certified log x y) : Cmd.Optimal log x := by
  obtain ⟨h1, h2, h3, h4⟩ := h
  refine ⟨Cmd.feasible_of_check h1, fun z hz => ?_⟩
  rw [h4, objective_split h2 h3 hz]
  have : 0 ≤ ((varsOf log).map fun p => coefIn (form log y) p.1 * z p.1 - coefIn (form log y) p.1 * best (coefIn (form log y) p.1) p).sum := by
    apply sum_nonneg_of
    intro q hq
    obtain ⟨p, hp, rfl⟩ := List.mem_map.mp hq
    linarith [best_le (coefIn (form log y) p.1) (z p.1) p (varsOf_bounds hz hp)]
  linarith

/-! ### What all optimal answers share -/

/-- the variables whose coefficient is not zero, and where they stand -/
def settled (log : List Cmd) (y : RowId → ℚ) : Dict Var ℚ :=
  ((varsOf log).filter fun p => coefIn (form log y) p.1 ≠ 0).map fun p => (p.1, best (coefIn (form log y) p.1) p)

/-- values that an answer has -/
def Holds (K : Dict Var ℚ) (z : Var → ℚ) : Prop := ∀ p ∈ K, z p.1 = p.2

theorem settled_holds {log : List Cmd} {x z : Var → ℚ} {y : RowId → ℚ} (h : Certified log x y) (hz : Cmd.Optimal log z) :
    Holds (settled log y) z := by
  have ho := certified_optimal h
  obtain ⟨h1, h2, h3, h4⟩ := h
  have hs := objective_split h2 h3 hz.1
  have e : Cmd.objective log z = bound log y := by rw [← h4]; exact le_antisymm (hz.2 _ ho.1) (ho.2 _ hz.1)
  have h0 : ((varsOf log).map fun p => coefIn (form log y) p.1 * z p.1 - coefIn (form log y) p.1 * best (coefIn (form log y) p.1) p).sum = 0 := by
    linarith
  have key : ∀ (l : List (Var × ℚ × ℚ)) (f : Var × ℚ × ℚ → ℚ), (∀ p ∈ l, 0 ≤ f p) → (l.map f).sum = 0 → ∀ p ∈ l, f p = 0 := by
    intro l f
    induction l with
    | nil => intro _ _ p hp; simp at hp
    | cons a l ih =>
      intro hn hs p hp
      rw [List.map_cons, List.sum_cons] at hs
      have ha := hn a (List.mem_cons_self ..)
      have hl : 0 ≤ (l.map f).sum := sum_nonneg_of fun q hq => by
        obtain ⟨p, hp, rfl⟩ := List.mem_map.mp hq
        exact hn p (List.mem_cons_of_mem _ hp)
      rcases List.mem_cons.mp hp with rfl | hp
      · linarith
      · exact ih (fun p hp => hn p (List.mem_cons_of_mem _ hp)) (by linarith) p hp
  intro q hq
  unfold settled at hq
  obtain ⟨p, hp, rfl⟩ := List.mem_map.mp hq
  obtain ⟨hp, hc⟩ := List.mem_filter.mp hp
  have hc : coefIn (form log y) p.1 ≠ 0 := by simpa using hc
  have := key _ _ (by
    intro p hp
    linarith [best_le (coefIn (form log y) p.1) (z p.1) p (varsOf_bounds hz.1 hp)]) h0 p hp
  have h5 : coefIn (form log y) p.1 * (z p.1 - best (coefIn (form log y) p.1) p) = 0 := by linarith
  rcases mul_eq_zero.mp h5 with h | h
  · exact absurd h hc
  · show z p.1 = _
    linarith

/-- a constraint with one unknown gives it -/
def solveRow (d : Dict Var ℚ) (rhs : ℚ) (K : Dict Var ℚ) : Dict Var ℚ :=
  match d.filter fun p => (K.get? p.1).isNone with
  | [(v, c)] =>
    if c = 0 then K
    else (v, (rhs - ((d.filter fun p => (K.get? p.1).isSome).map fun p => p.2 * (K.get? p.1).getD 0).sum) / c) :: K
  | _ => K

theorem solveRow_holds {d : Dict Var ℚ} {rhs : ℚ} {K : Dict Var ℚ} {z : Var → ℚ} (hd : Cmd.value d z = rhs) (hK : Holds K z) :
    Holds (solveRow d rhs K) z := by
  unfold solveRow
  split
  · next v c hf =>
    split_ifs with hc
    · exact hK
    · intro p hp
      rcases List.mem_cons.mp hp with rfl | hp
      · show z v = _
        have key : ∀ l : List (Var × ℚ), Cmd.value l z = ((l.filter fun p => (K.get? p.1).isSome).map fun p => p.2 * (K.get? p.1).getD 0).sum +
            Cmd.value (l.filter fun p => (K.get? p.1).isNone) z := by
          intro l
          induction l with
          | nil => simp [Cmd.value]
          | cons p l ih =>
            have e : Cmd.value (p :: l) z = p.2 * z p.1 + Cmd.value l z := by simp [Cmd.value]
            rw [e, ih]
            cases hg : K.get? p.1 with
            | none =>
              rw [List.filter_cons_of_neg (by simp [hg]), List.filter_cons_of_pos (by simp [hg])]
              have e : Cmd.value (p :: l.filter fun p => (K.get? p.1).isNone) z = p.2 * z p.1 + Cmd.value (l.filter fun p => (K.get? p.1).isNone) z := by
                simp [Cmd.value]
              rw [e]; ring
            | some q =>
              rw [List.filter_cons_of_pos (by simp [hg]), List.filter_cons_of_neg (by simp [hg])]
              have : z p.1 = q := hK _ (Dict.mem_of_get? hg)
              simp only [List.map_cons, List.sum_cons, hg, Option.getD_some, this]
              ring
        have h := key d
        rw [hf, hd] at h
        have e : Cmd.value [(v, c)] z = c * z v := by simp [Cmd.value]
        rw [e] at h
        rw [eq_div_iff hc]
        linarith
      · exact hK p hp
  · exact hK

/-- go through the constraints `n` times -/
def solveRows (log : List Cmd) : ℕ → Dict Var ℚ → Dict Var ℚ
  | 0, K => K
  | n + 1, K => solveRows log n ((equations log).foldl (fun K e => solveRow (Cmd.coefs log e.1) e.2 K) K)

theorem solveRows_holds {log : List Cmd} {z : Var → ℚ} (hz : Cmd.Feasible log z) (n : ℕ) {K : Dict Var ℚ} (hK : Holds K z) :
    Holds (solveRows log n K) z := by
  induction n generalizing K with
  | zero => exact hK
  | succ n ih =>
    apply ih
    have key : ∀ (l : List (RowId × ℚ)) (K : Dict Var ℚ), (∀ e ∈ l, Cmd.value (Cmd.coefs log e.1) z = e.2) → Holds K z →
        Holds (l.foldl (fun K e => solveRow (Cmd.coefs log e.1) e.2 K) K) z := by
      intro l
      induction l with
      | nil => intro K _ h; exact h
      | cons e l ih =>
        intro K he h
        exact ih _ (fun e he' => he e (List.mem_cons_of_mem _ he')) (solveRow_holds (he e (List.mem_cons_self ..)) h)
    refine key _ _ ?_ hK
    intro e he
    unfold equations at he
    obtain ⟨c, hc, e1⟩ := List.mem_filterMap.mp he
    cases c with
    | constraint r lo hi =>
      simp only at e1
      split_ifs at e1 with h0
      cases e1
      subst h0
      have := hz.2 _ _ _ hc
      exact le_antisymm this.2 this.1
    | _ => simp at e1

/-- what optimal answers share -/
def shared (log : List Cmd) (y : RowId → ℚ) (n : ℕ) : Dict Var ℚ := solveRows log n (settled log y)

theorem shared_holds {log : List Cmd} {x z : Var → ℚ} {y : RowId → ℚ} (h : Certified log x y) (hz : Cmd.Optimal log z) (n : ℕ) :
    Holds (shared log y n) z := solveRows_holds hz.1 n (settled_holds h hz)

/-! ### The result of `solve_lp` -/

/-- all flows of the study are known -/
def AllKnown (s : Study) (K : ℕ → Dict Var ℚ) : Prop :=
  ∀ k < s.nbScn, ∀ t < s.horizon,
    (∀ p ∈ s.networks, ∀ q ∈ p.2.nodes,
      (∀ e ∈ q.2.consumptions.zipIdx, ((K k).get? (.lol t p.1 q.1 e.2)).isSome = true) ∧
      (∀ e ∈ q.2.productions.zipIdx, ((K k).get? (.prod t p.1 q.1 e.2)).isSome = true) ∧
      (∀ e ∈ q.2.storages.zipIdx, ((K k).get? (.cap t p.1 q.1 e.2)).isSome = true ∧ ((K k).get? (.fin t p.1 q.1 e.2)).isSome = true ∧
        ((K k).get? (.fout t p.1 q.1 e.2)).isSome = true) ∧
      (∀ e ∈ q.2.links.zipIdx, ((K k).get? (.link t p.1 q.1 e.2)).isSome = true)) ∧
    ∀ p ∈ s.converters, ((K k).get? (.convDest t p.1)).isSome = true ∧
      ∀ q ∈ p.2.srcRatios, ((K k).get? (.convSrc t p.1 q.1)).isSome = true

instance (s : Study) (K : ℕ → Dict Var ℚ) : Decidable (AllKnown s K) := by unfold AllKnown; infer_instance

/-- the values of known variables -/
def known (K : ℕ → Dict Var ℚ) : Vals := fun k v => ((K k).get? v).getD 0

theorem resultAll_known {s : Study} {X : Vals} {K : ℕ → Dict Var ℚ} (b : Benchmark) (hK : ∀ k < s.nbScn, Holds (K k) (X k))
    (ha : AllKnown s K) : resultAll s X b = resultAll s (known K) b := by
  have key : ∀ k < s.nbScn, ∀ v, ((K k).get? v).isSome = true → X k v = known K k v := by
    intro k hk v hv
    obtain ⟨q, hq⟩ := Option.isSome_iff_exists.mp hv
    have := hK k hk _ (Dict.mem_of_get? hq)
    simp only [known, hq, Option.getD_some]
    exact this
  unfold resultAll
  congr 1
  · apply List.map_congr_left
    intro p hp
    congr 2
    apply List.map_congr_left
    intro q hq
    congr 1
    unfold nodeAll
    congr 1
    · apply List.map_congr_left
      intro e he
      congr 1
      apply ofCells_congr
      intro k hk t ht
      rw [key k hk _ (((ha k hk t ht).1 p hp q hq).1 e he)]
    · apply List.map_congr_left
      intro e he
      congr 1
      apply ofCells_congr
      intro k hk t ht
      rw [key k hk _ (((ha k hk t ht).1 p hp q hq).2.1 e he)]
    · apply List.map_congr_left
      intro e he
      congr 1 <;> (apply ofCells_congr; intro k hk t ht)
      · rw [key k hk _ (((ha k hk t ht).1 p hp q hq).2.2.1 e he).1]
      · rw [key k hk _ (((ha k hk t ht).1 p hp q hq).2.2.1 e he).2.1]
      · rw [key k hk _ (((ha k hk t ht).1 p hp q hq).2.2.1 e he).2.2]
    · apply List.map_congr_left
      intro e he
      congr 1
      apply ofCells_congr
      intro k hk t ht
      rw [key k hk _ (((ha k hk t ht).1 p hp q hq).2.2.2 e he)]
  · apply List.map_congr_left
    intro p hp
    congr 1
    unfold convAll
    congr 1
    · apply List.map_congr_left
      intro q hq
      congr 1
      apply ofCells_congr
      intro k hk t ht
      rw [key k hk _ (((ha k hk t ht).2 p hp).2 q hq)]
    · apply ofCells_congr
      intro k hk t ht
      rw [key k hk _ ((ha k hk t ht).2 p hp).1]

/-! ### Chains of calls -/

theorem chainFrom_run (ms : List Method) : ∀ (w : World) (h : Handle) (s : Study), chainFrom w h ms = .ok s →
    s = (w.run (callsFrom w h ms)).study := by
  induction ms with
  | nil =>
    intro w h s e
    simp only [chainFrom, Except.ok.injEq] at e
    subst e; rfl
  | cons m ms ih =>
    intro w h s e
    unfold chainFrom at e
    unfold callsFrom
    cases hm : Method.on h m with
    | none => rw [hm] at e; simp at e
    | some c =>
      rw [hm] at e
      simp only at e ⊢
      rcases hc : World.step c w with ⟨r, w'⟩
      rw [hc] at e
      cases r with
      | error x => simp at e
      | ok h' =>
        simp only at e ⊢
        rw [ih w' h' s e]
        have : World.after w c = w' := by unfold World.after; rw [hc]
        simp only [World.run, List.foldl_cons, this]

/-- the study of a chain can be solved -/
def ChainReady (h n : ℕ) (ms : List Method) : Prop :=
  (chain h n ms).toOption.isSome = true ∧
  (callsFrom (World.start h n) .study ms).all (fun c => c.raws.all fun r => match r with
    | .val _ => false
    | _ => true) = true ∧
  (∀ p ∈ (built h n ms).converters, p.2.cost ≠ .int0 ∧ p.2.max ≠ .int0) ∧
  (∀ p ∈ (built h n ms).converters, ∀ q ∈ p.2.srcRatios, ∀ k < (built h n ms).nbScn, ∀ t < (built h n ms).horizon, val q.2 k t ≠ 0) ∧
  ∀ p ∈ (built h n ms).converters, ∀ key ∈ p.2.srcRatios.map Prod.fst, splitKey (joinKey key) = key

instance (h n : ℕ) (ms : List Method) : Decidable (ChainReady h n ms) := by unfold ChainReady; infer_instance

theorem ready_of_chain {h n : ℕ} {ms : List Method} (hc : ChainReady h n ms) : Ready (built h n ms) := by
  obtain ⟨h1, h2, h3, h4, h5⟩ := hc
  refine ⟨⟨h, n, _, rawCalls_of h2, ?_⟩, h3, RatiosNonzero.usable h4, cleanSources_of h5⟩
  cases e : chain h n ms with
  | error x => rw [e] at h1; simp [Except.toOption] at h1
  | ok s =>
    have : built h n ms = s := by unfold built; rw [e]
    rw [this]
    exact chainFrom_run ms _ _ _ e

/-- The result of `solve_lp`, whatever the solver, if its answers are optimal and there is only one. `x k`, `y k`: an answer for scenario
`k`, and multipliers that prove it optimal. -/
theorem solve_chain {h n : ℕ} {ms : List Method} (hc : ChainReady h n ms) (x : ℕ → Var → ℚ) (y : ℕ → RowId → ℚ) (m : ℕ)
    (hx : ∀ k < (built h n ms).nbScn, Certified (logOf (built h n ms) k) (x k) (y k))
    (ha : AllKnown (built h n ms) fun k => shared (logOf (built h n ms) k) (y k) m) {solver : Solver} {b : Benchmark} {r : Result}
    (hr : solveLp solver b (built h n ms) = .ok r) (ho : ∀ k < (built h n ms).nbScn, Answers solver (built h n ms) k Cmd.Optimal) :
    r = resultAll (built h n ms) (known fun k => shared (logOf (built h n ms) k) (y k) m) b := by
  have hs := ready_of_chain hc
  obtain rfl := Ready.result hs hr
  refine resultAll_known b (fun k hk => ?_) ha
  have e : logOf (built h n ms) k = fullLog (built h n ms) k := (logOf_eq (Ready.build hs hk)).symm
  refine shared_holds (hx k hk) ?_ m
  rw [e]
  exact Ready.answer hs hk (ho k hk)

/-- there is such a solver -/
theorem solver_exists {h n : ℕ} {ms : List Method} (hc : ChainReady h n ms) (x : ℕ → Var → ℚ) (y : ℕ → RowId → ℚ)
    (hx : ∀ k < (built h n ms).nbScn, Certified (logOf (built h n ms) k) (x k) (y k)) :
    ∃ solver, ∀ k < (built h n ms).nbScn, Answers solver (built h n ms) k Cmd.Optimal := by
  classical
  refine ⟨fun log => if h' : ∃ k < (built h n ms).nbScn, log = logOf (built h n ms) k then x h'.choose else fun _ => 0, ?_⟩
  intro k hk steps log e
  obtain rfl := logOf_eq e
  have h' : ∃ k' < (built h n ms).nbScn, logOf (built h n ms) k = logOf (built h n ms) k' := ⟨k, hk, rfl⟩
  simp only [dif_pos h']
  have := certified_optimal (hx _ h'.choose_spec.1)
  rwa [← h'.choose_spec.2] at this

end Hadar.Conform
