import Verif.Proofs.Whole
import Verif.Proofs.Rounding
import Verif.Props.Prices

/-!
# The flows of a study as flows in a network
-/

namespace Hadar

open Spec Rounding Minimum

/-- the places where energy is conserved: nodes, the storage of a node, and converters -/
inductive Slot where
  | node (g d : String) (t : ℕ)
  | stored (g d : String) (t : ℕ)
  | used (c : String) (q : String × String) (t : ℕ)
  deriving DecidableEq

/-- prices given place by place -/
def slotPrices (Y : Slot → ℚ) : Prices where
  node g d t := Y (.node g d t)
  stored g d i t := if i = 0 then Y (.stored g d t) else 0
  used c q t := Y (.used c q t)

/-- the flows and levels of a study -/
inductive Known (s : Study) : Var → Prop
  | lol {g d n i c t} : HasNode s g d n → n.consumptions[i]? = some c → t < s.horizon → Known s (.lol t g d i)
  | prod {g d n i c t} : HasNode s g d n → n.productions[i]? = some c → t < s.horizon → Known s (.prod t g d i)
  | cap {g d n i c t} : HasNode s g d n → n.storages[i]? = some c → t < s.horizon → Known s (.cap t g d i)
  | fin {g d n i c t} : HasNode s g d n → n.storages[i]? = some c → t < s.horizon → Known s (.fin t g d i)
  | fout {g d n i c t} : HasNode s g d n → n.storages[i]? = some c → t < s.horizon → Known s (.fout t g d i)
  | link {g d n i c t} : HasNode s g d n → n.links[i]? = some c → t < s.horizon → Known s (.link t g d i)
  | src {p g d r t} : p ∈ s.converters → ([g, d], r) ∈ p.2.srcRatios → t < s.horizon → Known s (.convSrc t p.1 [g, d])
  | dest {p t} : p ∈ s.converters → t < s.horizon → Known s (.convDest t p.1)

variable {s : Study} {k : ℕ}

theorem slotPrices_eq (s : Study) (Y : Slot → ℚ) : ∃ y, pricesOf s y = slotPrices Y := by
  refine ⟨fun
    | .adeq t g d => Y (.node g d t)
    | .stor t g d _ => -Y (.stored g d t)
    | .mix t c [g, d] => Y (.used c (g, d) t)
    | .mix _ _ _ => 0, ?_⟩
  unfold pricesOf slotPrices
  simp only [neg_neg]

/-- weighted constraints, flow by flow -/
theorem rows_sum (hi : StudyInv s) (hself : NoSelfLink s) (Y : Slot → ℚ) (x : Var → ℚ) :
    rows s k (slotPrices Y) (ofVars x) =
      ((varsOf (fullLog s k)).map fun v => rows s k (slotPrices Y) (ofVars (unit v)) * x v).sum := by
  obtain ⟨y, e⟩ := slotPrices_eq s Y
  have h : ∀ x, rows s k (slotPrices Y) (ofVars x) = ((varsOf (fullLog s k)).map fun v =>
      ((rowsOf (fullLog s k)).map fun r => y r * coef (Cmd.coefs (fullLog s k) r) v).sum * x v).sum := by
    intro x
    rw [← e, ← sum_rows hi hself]
    have h1 : ((rowsOf (fullLog s k)).map fun r => y r * Cmd.value (Cmd.coefs (fullLog s k) r) x) =
        (rowsOf (fullLog s k)).map fun r => sumL (varsOf (fullLog s k)) fun v => y r * coef (Cmd.coefs (fullLog s k) r) v * x v := by
      apply List.map_congr_left
      intro r _
      rw [← lin_row, lin]
      show _ * sumL _ _ = _
      rw [← sumL_mul]
      exact sumL_congr fun v _ => by ring
    rw [h1]
    show sumL _ _ = sumL _ _
    rw [sumL_swap]
    apply sumL_congr
    intro v _
    show _ = sumL _ _ * _
    rw [mul_comm, ← sumL_mul]
    exact sumL_congr fun r _ => by ring
  rw [h x]
  congr 1
  apply List.map_congr_left
  intro v hv
  rw [h (unit v), sum_unit (varsOf_nodup _) hv]

theorem known_vars (hi : StudyInv s) (hr : ∀ p ∈ s.converters, ∀ q ∈ p.2.srcRatios, ∀ t < s.horizon, val q.2 k t ≠ 0) {v : Var}
    (h : Known s v) : v ∈ varsOf (fullLog s k) := by
  cases h with
  | lol hn hc ht => exact mem_varsOf_numVar (numVar_lol hn ht hc)
  | prod hn hc ht => exact mem_varsOf_numVar (numVar_prod hn ht hc)
  | @cap g d n i c t hn hc ht => exact mem_varsOf_numVar (numVar_stor (a := .numVar (.cap t g d i) 0 (val c.capacity k t)) hn ht hc (by simp))
  | @fin g d n i c t hn hc ht => exact mem_varsOf_numVar (numVar_stor (a := .numVar (.fin t g d i) 0 (val c.flowIn k t)) hn ht hc (by simp))
  | @fout g d n i c t hn hc ht => exact mem_varsOf_numVar (numVar_stor (a := .numVar (.fout t g d i) 0 (val c.flowOut k t)) hn ht hc (by simp))
  | link hn hc ht => exact mem_varsOf_numVar (numVar_link hn ht hc)
  | src hp hm ht => exact mem_varsOf_numVar (numVar_src hi hp hm ht (hr _ hp _ hm _ ht))
  | dest hp ht => exact mem_varsOf_numVar (numVar_dest hi hp ht)

/-- the value at a place, if any -/
def atSlot (Y : Slot → ℚ) (o : Option Slot) : ℚ := o.elim 0 Y

theorem rows_zero (D : Dispatch) : rows s k (slotPrices fun _ => 0) D = 0 := by
  unfold rows
  apply sumL_eq_zero
  intro t _
  have h1 : sumN s (nodeRows s k (slotPrices fun _ => 0) D t) = 0 := by
    rw [sumN_congr (f' := fun _ _ _ => 0), sumN_zero]
    intro g d n _
    unfold nodeRows
    simp only [slotPrices, ite_self, zero_mul, sumI_zero, sub_zero]
  have h2 : sumL s.converters (convRows k (slotPrices fun _ => 0) D t) = 0 := by
    apply sumL_eq_zero
    intro p _
    unfold convRows
    simp only [slotPrices, zero_mul, sumL_zero]
  rw [h1, h2, add_zero]

/-- each flow comes to one place and leaves another -/
theorem column (hi : StudyInv s) (hdest : ∀ p ∈ s.converters, ∃ n, HasNode s p.2.destNetwork p.2.destNode n) (h1 : OneStorage s)
    (hone : OneForOne s k) {v : Var} (hv : Known s v) :
    ∃ a b : Option Slot, ∀ Y, rows s k (slotPrices Y) (ofVars (unit v)) = atSlot Y a - atSlot Y b := by
  have key : ∀ Y, rows s k (slotPrices Y) (ofVars (unit v)) =
      reds s k (slotPrices fun _ => 0) (ofVars (unit v)) - reds s k (slotPrices Y) (ofVars (unit v)) := by
    intro Y
    have e1 := cost_eq_rows_reds (k := k) (P := slotPrices Y) hi hdest (ofVars (unit v))
    have e2 := cost_eq_rows_reds (k := k) (P := slotPrices fun _ => 0) hi hdest (ofVars (unit v))
    rw [rows_zero] at e2
    linarith
  have zero : ∀ {g d n i} {c : Storage}, HasNode s g d n → n.storages[i]? = some c → i = 0 := by
    intro g d n i c hn hc
    have := (List.getElem?_eq_some_iff.1 hc).1
    have := h1 g d n hn
    omega
  cases hv with
  | @lol g d n i c t hn hc ht =>
    refine ⟨some (.node g d t), none, fun Y => ?_⟩
    rw [key, red_lol hi hn ht hc, red_lol hi hn ht hc]
    simp [slotPrices, atSlot]
  | @prod g d n i c t hn hc ht =>
    refine ⟨some (.node g d t), none, fun Y => ?_⟩
    rw [key, red_prod hi hn ht hc, red_prod hi hn ht hc]
    simp [slotPrices, atSlot]
  | @link g d n i c t hn hc ht =>
    refine ⟨some (.node g c.dest t), some (.node g d t), fun Y => ?_⟩
    rw [key, red_link hi hn ht hc, red_link hi hn ht hc]
    simp only [slotPrices, atSlot, Option.elim]
    ring
  | @cap g d n i c t hn hc ht =>
    obtain rfl := zero hn hc
    refine ⟨if t + 1 < s.horizon then some (.stored g d (t + 1)) else none, some (.stored g d t), fun Y => ?_⟩
    rw [key, red_cap hi hn ht hc, red_cap hi hn ht hc]
    simp only [slotPrices, atSlot, Prices.storedNext, if_true]
    split_ifs <;> simp only [Option.elim] <;> ring
  | @fin g d n i c t hn hc ht =>
    obtain rfl := zero hn hc
    refine ⟨some (.stored g d t), some (.node g d t), fun Y => ?_⟩
    rw [key, red_fin hi hn ht hc, red_fin hi hn ht hc, hone.storages g d n hn c (List.mem_of_getElem? hc) t ht]
    simp only [slotPrices, atSlot, Option.elim, if_true]
    ring
  | @fout g d n i c t hn hc ht =>
    obtain rfl := zero hn hc
    refine ⟨some (.node g d t), some (.stored g d t), fun Y => ?_⟩
    rw [key, red_fout hi hn ht hc, red_fout hi hn ht hc]
    simp only [slotPrices, atSlot, Option.elim, if_true]
    ring
  | @src p g d r t hp hm ht =>
    obtain ⟨q, e, hq⟩ := hone.converters p hp
    have hr1 : val r k t = 1 := by
      rw [show r = q.2 from congrArg Prod.snd (List.mem_singleton.1 (e ▸ hm))]
      exact hq t ht
    refine ⟨some (.used p.1 (g, d) t), some (.node g d t), fun Y => ?_⟩
    rw [key, red_src hi hp hm ht, red_src hi hp hm ht, hr1]
    simp only [slotPrices, atSlot, Option.elim]
    ring
  | @dest p t hp ht =>
    obtain ⟨q, e, hq⟩ := hone.converters p hp
    refine ⟨some (.node p.2.destNetwork p.2.destNode t), some (.used p.1 (srcPair q.1) t), fun Y => ?_⟩
    rw [key, red_dest hi hp ht, red_dest hi hp ht, e]
    simp only [slotPrices, atSlot, Option.elim, sumL, List.map_cons, List.map_nil, List.sum_cons, List.sum_nil]
    ring

/-- one at a place, zero elsewhere -/
def onlyAt (o : Slot) : Slot → ℚ := fun o' => if o' = o then 1 else 0

theorem onlyAt_diff (o : Slot) (a b : Option Slot) :
    atSlot (onlyAt o) a - atSlot (onlyAt o) b = (if a = some o then 1 else 0) - if b = some o then 1 else 0 := by
  have : ∀ c : Option Slot, atSlot (onlyAt o) c = if c = some o then 1 else 0 := by
    intro c
    cases c with
    | none => rfl
    | some x => simp [atSlot, onlyAt]
  rw [this, this]

/-! ### The constraints one by one -/

variable {P : Prices}

theorem rows_node {D : Dispatch} (hi : StudyInv s) {g d : String} {n : InputNode} (hn : HasNode s g d n) {t : ℕ}
    (ht : t < s.horizon) (h1 : ∀ t' g' d' n', ¬ (t' = t ∧ g' = g ∧ d' = d) → nodeRows s k P D t' g' d' n' = 0)
    (h2 : ∀ t' p, convRows k P D t' p = 0) : rows s k P D = nodeRows s k P D t g d n := by
  have := sumL_bump (f := fun t => sumN s (nodeRows s k P D t) + sumL s.converters (convRows k P D t)) (g := fun _ => 0)
    List.nodup_range (a := t) (List.mem_range.mpr ht) (e := nodeRows s k P D t g d n) (by
      rw [sumN_pick hi hn fun g' d' n' _ h => h1 t g' d' n' fun e => h e.2, sumL_eq_zero fun p _ => h2 t p, add_zero, zero_add])
    (by
      intro t' _ hne
      rw [sumL_eq_zero fun p _ => h2 t' p, add_zero, sumN_congr fun g' d' n' _ => h1 t' g' d' n' fun e => hne e.1, sumN_zero])
  unfold rows
  rw [this, sumL_zero, zero_add]

theorem rows_conv {D : Dispatch} (hi : StudyInv s) {p : String × Converter} (hp : p ∈ s.converters) {t : ℕ}
    (ht : t < s.horizon) (h1 : ∀ t' g' d' n', nodeRows s k P D t' g' d' n' = 0)
    (h2 : ∀ t' p', p' ∈ s.converters → ¬ (t' = t ∧ p'.1 = p.1) → convRows k P D t' p' = 0) :
    rows s k P D = convRows k P D t p := by
  have := sumL_bump (f := fun t => sumN s (nodeRows s k P D t) + sumL s.converters (convRows k P D t)) (g := fun _ => 0)
    List.nodup_range (a := t) (List.mem_range.mpr ht) (e := convRows k P D t p) (by
      rw [sumN_congr fun g' d' n' _ => h1 t g' d' n', sumN_zero, zero_add, zero_add]
      have := sumL_bump (f := convRows k P D t) (g := fun _ => 0) hi.names.converters.of_map hp (e := convRows k P D t p) (by simp)
        (by
          intro p' hp' hne
          apply h2 _ _ hp'
          rintro ⟨_, e⟩
          exact hne (List.inj_on_of_nodup_map hi.names.converters hp' hp e))
      rw [this, sumL_zero, zero_add])
    (by
      intro t' _ hne
      rw [sumN_congr fun g' d' n' _ => h1 t' g' d' n', sumN_zero, zero_add]
      exact sumL_eq_zero fun p' hp' => h2 t' p' hp' fun e => hne e.1)
  unfold rows
  rw [this, sumL_zero, zero_add]

theorem rows_balance (hi : StudyInv s) (D : Dispatch) {g d : String} {n : InputNode} (hn : HasNode s g d n) {t : ℕ}
    (ht : t < s.horizon) : rows s k (slotPrices (onlyAt (.node g d t))) D =
      sumI n.consumptions (fun c _ => val c.quantity k t) + (incoming s D g d n t - outgoing s k D g d n t) := by
  rw [rows_node hi hn ht]
  · simp [nodeRows, slotPrices, onlyAt, sumI_zero]
  · intro t' g' d' n' h
    have : ¬ (g' = g ∧ d' = d ∧ t' = t) := fun e => h ⟨e.2.2, e.1, e.2.1⟩
    simp [nodeRows, slotPrices, onlyAt, sumI_zero, this]
  · intro t' p
    simp [convRows, slotPrices, onlyAt, sumL_zero]

theorem rows_level (hi : StudyInv s) (D : Dispatch) {g d : String} {n : InputNode} (hn : HasNode s g d n) {c : Storage}
    (hc : n.storages = [c]) {t : ℕ} (ht : t < s.horizon) : rows s k (slotPrices (onlyAt (.stored g d t))) D =
      -(D.cap g d 0 t + D.fout g d 0 t - val c.eff k t * D.fin g d 0 t - capBefore D g d 0 t) := by
  rw [rows_node hi hn ht]
  · simp [nodeRows, slotPrices, onlyAt, hc, sumI]
  · intro t' g' d' n' h
    have : ¬ (g' = g ∧ d' = d ∧ t' = t) := fun e => h ⟨e.2.2, e.1, e.2.1⟩
    simp [nodeRows, slotPrices, onlyAt, sumI_zero, this]
  · intro t' p
    simp [convRows, slotPrices, onlyAt, sumL_zero]

theorem rows_ratio (hi : StudyInv s) (D : Dispatch) {p : String × Converter} (hp : p ∈ s.converters) {g d : String} {r : NumVal}
    (hr : p.2.srcRatios = [([g, d], r)]) {t : ℕ} (ht : t < s.horizon) :
    rows s k (slotPrices (onlyAt (.used p.1 (g, d) t))) D = val r k t * D.convSrc p.1 (g, d) t - D.convDest p.1 t := by
  rw [rows_conv hi hp ht]
  · simp [convRows, slotPrices, onlyAt, hr, sumL, srcPair]
  · intro t' g' d' n'
    simp [nodeRows, slotPrices, onlyAt, sumI_zero]
  · intro t' p' _ h
    have : ∀ q, ¬ (p'.1 = p.1 ∧ q = (g, d) ∧ t' = t) := fun q e => h ⟨e.2.2, e.1⟩
    simp [convRows, slotPrices, onlyAt, sumL_zero, this]

/-! ### Rounding a dispatch -/

theorem roundedTo_of {v x y : ℚ} (hv : 0 < v) (hy : Whole y) (h1 : ⌊x / v⌋ ≤ y) (h2 : y ≤ ⌈x / v⌉) : RoundedTo v x (v * y) := by
  obtain ⟨z, rfl⟩ := hy
  refine ⟨⟨z, mul_comm _ _⟩, ?_⟩
  have e : v * z - x = v * (z - x / v) := by field_simp
  rw [e, abs_mul, abs_of_pos hv]
  have h3 := Int.lt_floor_add_one (x / v)
  have h4 := Int.ceil_lt_add_one (x / v)
  have : |(z : ℚ) - x / v| < 1 := abs_lt.2 ⟨by linarith, by linarith⟩
  calc v * |(z : ℚ) - x / v| < v * 1 := mul_lt_mul_of_pos_left this hv
    _ = v := mul_one v

theorem within_whole {v x y top : ℚ} (hv : 0 < v) (ht : MultipleOf v top) (h0 : 0 ≤ x ∧ x ≤ top) (h1 : ⌊x / v⌋ ≤ y)
    (h2 : y ≤ ⌈x / v⌉) : 0 ≤ v * y ∧ v * y ≤ top := by
  constructor
  · apply mul_nonneg hv.le
    refine le_trans ?_ h1
    exact_mod_cast Int.floor_nonneg.2 (div_nonneg h0.1 hv.le)
  · obtain ⟨z, rfl⟩ := ht
    have : ⌈x / v⌉ ≤ z := Int.ceil_le.2 ((div_le_iff₀ hv).2 h0.2)
    have : y ≤ z := h2.trans (by exact_mod_cast this)
    rw [mul_comm]
    exact mul_le_mul_of_nonneg_right this hv.le

open Classical in
/-- a feasible dispatch can be rounded -/
theorem exists_rounded (hs : Ready s) (hself : NoSelfLink s) (h1 : OneStorage s) {v : ℚ} (hv : 0 < v) (hq : QuantitiesIn v s k)
    (hone : OneForOne s k) {D : Dispatch} (hD : Spec.Feasible s k D) :
    ∃ D', Spec.Feasible s k D' ∧ Rounded v s D D' ∧ cost s k D' ≤ cost s k D := by
  have hi := Built.inv hs.built
  have hdest := Ready.dest hs
  have hr : ∀ p ∈ s.converters, ∀ q ∈ p.2.srcRatios, ∀ t < s.horizon, val q.2 k t ≠ 0 := by
    intro p hp q hqm t ht
    obtain ⟨q', e, hq'⟩ := hone.converters p hp
    rw [e, List.mem_singleton] at hqm
    rw [hqm, hq' t ht]
    exact one_ne_zero
  have hcol : ∀ w, ∃ a b : Option Slot, Known s w → ∀ Y, rows s k (slotPrices Y) (ofVars (unit w)) = atSlot Y a - atSlot Y b := by
    intro w
    by_cases hw : Known s w
    · obtain ⟨a, b, h⟩ := column hi hdest h1 hone hw
      exact ⟨a, b, fun _ => h⟩
    · exact ⟨none, none, fun h => absurd h hw⟩
  choose a b hab using hcol
  let vs : Finset Var := (varsOf (fullLog s k)).toFinset.filter (Known s)
  have hvs : ∀ {w}, Known s w → w ∈ vs := fun hw => Finset.mem_filter.2 ⟨List.mem_toFinset.2 (known_vars hi hr hw), hw⟩
  -- sums over the variables
  have hsum : ∀ (f x : Var → ℚ), (∀ w, ¬ Known s w → x w = 0) →
      ((varsOf (fullLog s k)).map fun w => f w * x w).sum = ∑ w ∈ vs, f w * x w := by
    intro f x hx
    rw [Finset.sum_filter, ← List.sum_toFinset _ (varsOf_nodup _)]
    refine Finset.sum_congr rfl fun w _ => ?_
    by_cases hw : Known s w
    · rw [if_pos hw]
    · rw [if_neg hw, hx w hw, mul_zero]
  have hnet : ∀ (x : Var → ℚ), (∀ w, ¬ Known s w → x w = 0) → ∀ o, rows s k (slotPrices (onlyAt o)) (ofVars x) = net vs a b x o := by
    intro x hx o
    rw [rows_sum hi hself, hsum _ x hx]
    unfold net
    refine Finset.sum_congr rfl fun w hw => ?_
    rw [hab w (Finset.mem_filter.1 hw).2, onlyAt_diff]
    rfl
  have hcost : ∀ (x : Var → ℚ), (∀ w, ¬ Known s w → x w = 0) →
      cost s k (ofVars x) = ∑ w ∈ vs, coef (Cmd.objCoefs (fullLog s k)) w * x w := by
    intro x hx
    rw [← objective_eq hi, ← hsum _ x hx]
    have := lin_coef (varsOf_nodup (fullLog s k)) (Cmd.objCoefs (fullLog s k)) (fun p hp => mem_varsOf_obj hp) x
    unfold lin at this
    rw [this]
    rfl
  -- the flows of the dispatch
  let X : Var → ℚ := fun w => if Known s w then toVars D w else 0
  have hX0 : ∀ w, ¬ Known s w → X w = 0 := fun w hw => if_neg hw
  have hXk : ∀ {w}, Known s w → X w = toVars D w := fun hw => if_pos hw
  have hsame : SameFlows s D (ofVars X) := by
    refine ⟨?_, ?_, ?_, ?_, ?_, ?_, ?_, ?_⟩
    · intro g d n hn i hl t ht
      exact (hXk (.lol hn (List.getElem?_eq_getElem hl) ht)).symm
    · intro g d n hn i hl t ht
      exact (hXk (.prod hn (List.getElem?_eq_getElem hl) ht)).symm
    · intro g d n hn i hl t ht
      exact (hXk (.cap hn (List.getElem?_eq_getElem hl) ht)).symm
    · intro g d n hn i hl t ht
      exact (hXk (.fin hn (List.getElem?_eq_getElem hl) ht)).symm
    · intro g d n hn i hl t ht
      exact (hXk (.fout hn (List.getElem?_eq_getElem hl) ht)).symm
    · intro g d n hn i hl t ht
      exact (hXk (.link hn (List.getElem?_eq_getElem hl) ht)).symm
    · intro p hp g d hm t ht
      obtain ⟨⟨q, r⟩, hq, e⟩ := List.mem_map.1 hm
      simp only at e
      subst e
      exact (hXk (.src hp hq ht)).symm
    · intro p hp t ht
      exact (hXk (.dest hp ht)).symm
  have hDX : Spec.Feasible s k (ofVars X) := feasible_of_code hself h1 (CodeFeasible.congr hsame (code_of_feasible hself hD))
  have hwhole : ∀ o, Whole (net vs a b (fun w => X w / v) o) := by
    intro o
    have hm : MultipleOf (1 * v) (net vs a b X o) := by
      rw [← hnet X hX0, rows_const hi hDX]
      have hY : ∀ o', MultipleOf 1 (onlyAt o o') := by
        intro o'
        unfold onlyAt
        split_ifs
        · exact ⟨1, by simp⟩
        · exact .zero
      have hS : ∀ g d i t, MultipleOf 1 ((slotPrices (onlyAt o)).stored g d i t) := by
        intro g d i t
        show MultipleOf 1 (if i = 0 then _ else _)
        split_ifs
        · exact hY _
        · exact .zero
      refine .sumL fun t ht => .sumL fun p hp => .sumL fun q hq' => ?_
      have ht := List.mem_range.1 ht
      have hn : HasNode s p.1 q.1 q.2 := ⟨p.2, hp, hq'⟩
      refine .sub (.mul (hY _) (.sumI fun c hc _ => hq.consumptions _ _ _ hn c hc t ht)) (.sumI fun c hc i => .mul (hS _ _ _ _) ?_)
      split_ifs
      · exact (hq.storages _ _ _ hn c hc).1
      · exact .zero
    obtain ⟨z, hz⟩ := hm
    refine ⟨z, ?_⟩
    have : net vs a b (fun w => X w / v) o = net vs a b X o / v := by
      unfold net
      rw [div_eq_mul_inv, Finset.sum_mul]
      exact Finset.sum_congr rfl fun w _ => by ring
    rw [this, hz, one_mul, mul_div_cancel_right₀ _ hv.ne']
  obtain ⟨y, hy1, hy2, hy3⟩ := exists_rounding vs (coef (Cmd.objCoefs (fullLog s k))) _ (fun w => X w / v) rfl hwhole
  let X' : Var → ℚ := fun w => if Known s w then v * y w else 0
  have hX'0 : ∀ w, ¬ Known s w → X' w = 0 := fun w hw => if_neg hw
  have hX'k : ∀ {w}, Known s w → X' w = v * y w := fun hw => if_pos hw
  have hrows : ∀ o, rows s k (slotPrices (onlyAt o)) (ofVars X') = rows s k (slotPrices (onlyAt o)) (ofVars X) := by
    intro o
    rw [hnet X' hX'0, hnet X hX0]
    have e1 : net vs a b X' o = v * net vs a b y o := by
      unfold net
      rw [Finset.mul_sum]
      refine Finset.sum_congr rfl fun w hw => ?_
      rw [hX'k (Finset.mem_filter.1 hw).2]
      ring
    have e2 : net vs a b (fun w => X w / v) o = net vs a b X o / v := by
      unfold net
      rw [div_eq_mul_inv, Finset.sum_mul]
      exact Finset.sum_congr rfl fun w _ => by ring
    rw [e1, hy2, e2]
    field_simp
  have hrd : ∀ {w}, Known s w → RoundedTo v (toVars D w) (X' w) := by
    intro w hw
    have := hy1 w (hvs hw)
    rw [hX'k hw]
    rw [hXk hw] at this
    exact roundedTo_of hv this.1 this.2.1 this.2.2
  have hwi : ∀ {w top}, Known s w → MultipleOf v top → 0 ≤ toVars D w ∧ toVars D w ≤ top → 0 ≤ X' w ∧ X' w ≤ top := by
    intro w top hw ht h0
    have := hy1 w (hvs hw)
    rw [hX'k hw]
    rw [hXk hw] at this
    exact within_whole hv ht h0 this.2.1 this.2.2
  refine ⟨ofVars X', ⟨⟨?_, ?_, ?_, ?_, ?_, ?_⟩, ?_, ?_, ?_⟩, ⟨?_, ?_, ?_, ?_, ?_, ?_, ?_, ?_⟩, ?_⟩
  · intro g d n hn i c hc t ht
    exact hwi (.lol hn hc ht) (hq.consumptions _ _ _ hn c (List.mem_of_getElem? hc) t ht) (hD.bounds.consumptions g d n hn i c hc t ht)
  · intro g d n hn i c hc t ht
    exact hwi (.prod hn hc ht) (hq.productions _ _ _ hn c (List.mem_of_getElem? hc) t ht) (hD.bounds.productions g d n hn i c hc t ht)
  · intro g d n hn i c hc t ht
    have hb := hD.bounds.storages g d n hn i c hc t ht
    have hm := (hq.storages _ _ _ hn c (List.mem_of_getElem? hc)).2 t ht
    exact ⟨hwi (.cap hn hc ht) hm.1 hb.1, hwi (.fin hn hc ht) hm.2.1 hb.2.1, hwi (.fout hn hc ht) hm.2.2 hb.2.2⟩
  · intro g d n hn i c hc t ht
    exact hwi (.link hn hc ht) (hq.links _ _ _ hn c (List.mem_of_getElem? hc) t ht) (hD.bounds.links g d n hn i c hc t ht)
  · intro p hp g d r hm t ht
    have hb := hD.bounds.convSrc p hp g d r hm t ht
    have h0 := hr p hp _ hm t ht
    obtain ⟨q, e, hq1⟩ := hone.converters p hp
    have hr1 : val r k t = 1 := by
      rw [show r = q.2 from congrArg Prod.snd (List.mem_singleton.1 (e ▸ hm))]
      exact hq1 t ht
    have := hwi (.src hp hm ht) (top := fval p.2.max k t / val r k t) (by rw [hr1, div_one]; exact hq.converters p hp t ht)
      ⟨hb.1, hb.2 h0⟩
    exact ⟨this.1, fun _ => this.2⟩
  · intro p hp t ht
    exact hwi (.dest hp ht) (hq.converters p hp t ht) (hD.bounds.convDest p hp t ht)
  · intro g d n hn t ht
    have := hrows (.node g d t)
    rw [rows_balance hi _ hn ht, rows_balance hi _ hn ht, hDX.balanced g d n hn t ht] at this
    linarith
  · intro g d n hn i c hc t ht
    have hl : n.storages = [c] := by
      have := h1 g d n hn
      cases hst : n.storages with
      | nil => rw [hst] at hc; simp at hc
      | cons c' l =>
        rw [hst] at this hc
        have hl0 : l = [] := List.length_eq_zero_iff.1 (by simpa using this)
        subst hl0
        have hi0 : i = 0 := by
          have := (List.getElem?_eq_some_iff.1 hc).1
          simpa using this
        subst hi0
        simpa using hc
    have hi0 : i = 0 := by
      have := (List.getElem?_eq_some_iff.1 hc).1
      rw [hl] at this
      simpa using this
    subst hi0
    have h := hrows (.stored g d t)
    have h2 := hDX.storages g d n hn 0 c hc t ht
    rw [rows_level hi _ hn hl ht, rows_level hi _ hn hl ht] at h
    unfold Evolves at h2 ⊢
    rcases t with _ | t
    · simp only [capBefore, if_true, levelBefore] at h h2 ⊢
      linarith
    · simp only [capBefore, levelBefore, Nat.add_one_ne_zero, if_false, Nat.add_sub_cancel] at h h2 ⊢
      linarith
  · intro p hp g d r hm t ht
    obtain ⟨q, e, hq1⟩ := hone.converters p hp
    have hqe : ([g, d], r) = q := List.mem_singleton.1 (e ▸ hm)
    have h := hrows (.used p.1 (g, d) t)
    have h2 := hDX.ratios p hp g d r hm t ht
    rw [rows_ratio hi _ hp (by rw [e, ← hqe]) ht, rows_ratio hi _ hp (by rw [e, ← hqe]) ht] at h
    linarith
  · intro g d n hn i hl t ht
    exact hrd (.lol hn (List.getElem?_eq_getElem hl) ht)
  · intro g d n hn i hl t ht
    exact hrd (.prod hn (List.getElem?_eq_getElem hl) ht)
  · intro g d n hn i hl t ht
    exact hrd (.cap hn (List.getElem?_eq_getElem hl) ht)
  · intro g d n hn i hl t ht
    exact hrd (.fin hn (List.getElem?_eq_getElem hl) ht)
  · intro g d n hn i hl t ht
    exact hrd (.fout hn (List.getElem?_eq_getElem hl) ht)
  · intro g d n hn i hl t ht
    exact hrd (.link hn (List.getElem?_eq_getElem hl) ht)
  · intro p hp g d hm t ht
    obtain ⟨⟨q, r⟩, hq, e⟩ := List.mem_map.1 hm
    simp only at e
    subst e
    exact hrd (.src hp hq ht)
  · intro p hp t ht
    exact hrd (.dest hp ht)
  · rw [cost_congr (k := k) hsame, hcost X' hX'0, hcost X hX0]
    have e1 : ∑ w ∈ vs, coef (Cmd.objCoefs (fullLog s k)) w * X' w = v * ∑ w ∈ vs, coef (Cmd.objCoefs (fullLog s k)) w * y w := by
      rw [Finset.mul_sum]
      refine Finset.sum_congr rfl fun w hw => ?_
      rw [hX'k (Finset.mem_filter.1 hw).2]
      ring
    have e2 : ∑ w ∈ vs, coef (Cmd.objCoefs (fullLog s k)) w * X w =
        v * ∑ w ∈ vs, coef (Cmd.objCoefs (fullLog s k)) w * (X w / v) := by
      rw [Finset.mul_sum]
      refine Finset.sum_congr rfl fun w hw => ?_
      field_simp
    rw [e1, e2]
    exact mul_le_mul_of_nonneg_left hy3 hv.le

end Hadar
