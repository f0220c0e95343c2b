import Verif.Proofs.ConvTables

/-! # What the tables are when they are not what they should be -/

namespace Hadar

open Spec

/-! ### All elements written on the first block -/

theorem Frame.fillBlocks_same {α : Type} {blk : ℕ} {data : α → Except PyErr (List (String × Fill))}
    {L : α → List (String × Fill)} {cols : List String} (hc : cols.Nodup) {es : List α}
    (hd : ∀ e ∈ es, data e = .ok (L e) ∧ (L e).map Prod.fst = cols ∧ ∀ p ∈ L e, p.2.Fits blk)
    {f : Frame} (hcols : ∀ c ∈ cols, f.Has c) (hs : es ≠ [] → blk ≤ f.size) :
    ∃ f', Frame.fillBlocks blk id data es 0 f = .ok f' ∧ f'.size = f.size ∧ f'.names = f.names ∧
      (∀ e, es.getLast? = some e → ∀ m < blk, ∀ c v, Dict.get? (L e) c = some v → f'.cell c m = v.at m) ∧
      ∀ c i, blk ≤ i → f'.cell c i = f.cell c i := by
  induction es generalizing f with
  | nil => exact ⟨f, rfl, rfl, rfl, by simp, fun _ _ _ => rfl⟩
  | cons e es ih =>
    obtain ⟨hde, hce, hfe⟩ := hd e List.mem_cons_self
    have hs' := hs (by simp)
    obtain ⟨f1, e1, s1, n1, c1⟩ := Frame.assignAll_ok (a := 0 * blk) (b := (0 + 1) * blk) (l := L e) (f := f)
      (by simpa using hs') (by rw [hce]; exact hc) (by simpa using hfe)
    have hn1 : f1.names = f.names := by
      rw [n1, hce]
      have : f.created cols = [] := by
        unfold Frame.created
        rw [List.map_eq_nil_iff, List.filter_eq_nil_iff]
        intro c hcc
        simp [hcols c hcc]
      rw [this, List.append_nil]
    have hh1 : ∀ c, f1.Has c ↔ f.Has c := by intro c; unfold Frame.Has; rw [hn1]
    obtain ⟨f2, e2, s2, n2, l2, r2⟩ := ih (fun x hx => hd x (List.mem_cons_of_mem _ hx)) (f := f1)
      (fun c hcc => (hh1 c).mpr (hcols c hcc)) (fun _ => by rw [s1]; exact hs')
    refine ⟨f2, ?_, by rw [s2, s1], by rw [n2, hn1], ?_, ?_⟩
    · rw [Frame.fillBlocks, hde]
      simp only [bind, Except.bind, e1]
      exact e2
    · intro x hx m hm c v hv
      cases es with
      | nil =>
        simp only [List.getLast?_singleton, Option.some.injEq] at hx
        subst hx
        cases e2
        rw [c1, hv]
        simp [hm]
      | cons y ys =>
        rw [List.getLast?_cons_cons] at hx
        exact l2 x hx m hm c v hv
    · intro c i hi
      rw [r2 c i hi, c1]
      cases hg : Dict.get? (L e) c with
      | none => rfl
      | some v =>
        have hcc : c ∈ cols := by
          by_contra h
          have : Dict.get? (L e) c = none := by
            rw [Dict.get?_eq_none_iff]; unfold Dict.keys; rw [hce]; exact h
          rw [this] at hg; cases hg
        have : ¬ (0 * blk ≤ i ∧ i < (0 + 1) * blk) := by simp; omega
        simp only [this, if_false, hcols c hcc, if_true]

/-- the storage table, whatever the number of storages: the first block has the last storage -/
theorem storage_exact {s : Study} {r : Result} (hb : Built s) (hm : Mirrors s r) (junk : Junk) :
    ∃ f, Tables.storage junk s r = .ok f ∧ f.names = Tables.storageNames ∧
      f.size = (elements s (·.storages)).length * (s.nbScn * s.horizon) ∧
      (∀ e, (elements s (·.storages)).getLast? = some e → ∀ k < s.nbScn, ∀ t < s.horizon,
        f.row (k * s.horizon + t) = storageRow r e k t) ∧
      ∀ c i, s.nbScn * s.horizon ≤ i → f.cell c i = junk "storage" c i := by
  have hF := storage_match hb hm
  have hlen := hF.length_eq
  have hblk := Nat.mul_comm s.horizon s.nbScn
  have hsize : s.horizon * s.nbScn * Tables.count s (·.storages) =
      (elements s (·.storages)).length * (s.nbScn * s.horizon) := by
    rw [count_eq, Nat.mul_comm, hblk]
  let cols := ["max_capacity", "capacity", "max_flow_in", "flow_in", "max_flow_out", "flow_out",
      "cost", "init_capacity", "eff", "network", "name", "node", "t", "scn"]
  let L : String × String × ℕ × OutputStorage → List (String × Fill) := fun a => match Tables.storageData s a with
    | .ok l => l
    | .error _ => []
  have hd : ∀ a ∈ Tables.outItems r (·.storages), Tables.storageData s a = .ok (L a) ∧
      (L a).map Prod.fst = cols ∧ ∀ p ∈ L a, p.2.Fits (s.horizon * s.nbScn) := by
    intro a ha
    obtain ⟨e, _, l, h1, h2, h3, _⟩ := Forall₂.exists_left hF ha
    have : L a = l := by simp only [L, h1]
    rw [this]
    exact ⟨h1, h2, h3⟩
  obtain ⟨f, e1, s1, n1, l1, r1⟩ := Frame.fillBlocks_same (cols := cols) (by decide) hd
    (f := ⟨s.horizon * s.nbScn * Tables.count s (·.storages), Tables.storageNames, junk "storage"⟩)
    (by simp [cols, Frame.Has, Tables.storageNames])
    (by
      intro hne
      have : 0 < (elements s (·.storages)).length := by
        rw [← hlen]; exact List.length_pos_iff.mpr hne
      simp only
      rw [hsize, hblk]
      exact Nat.le_mul_of_pos_left _ this)
  refine ⟨f, e1, n1, by rw [s1, hsize], ?_, fun c i hi => r1 c i (by rw [hblk]; exact hi)⟩
  intro e he k hk t ht
  have hne : 0 < (elements s (·.storages)).length := by
    rw [List.length_pos_iff]; rintro h; rw [h] at he; cases he
  rw [List.getLast?_eq_getElem?] at he
  have hi1 : (elements s (·.storages)).length - 1 < (elements s (·.storages)).length := by omega
  have hi2 : (elements s (·.storages)).length - 1 < (Tables.outItems r (·.storages)).length := by omega
  obtain ⟨l, h1, h2, h3, h4⟩ := hF.get hi2 hi1
  simp only [List.get_eq_getElem] at h1 h4
  rw [List.getElem?_eq_getElem hi1] at he
  rw [Option.some.inj he] at h4
  rw [← h4 k hk t ht]
  unfold Frame.row rowOf
  rw [n1]
  refine List.map_congr_left ?_
  intro c hcm
  have hcc : c.1 ∈ cols := by
    have : ∀ c ∈ Tables.storageNames, c.1 ∈ cols := by decide
    exact this c hcm
  obtain ⟨v, hv⟩ : ∃ v, Dict.get? l c.1 = some v := by
    rw [← Option.isSome_iff_exists, ← Option.ne_none_iff_isSome]
    intro h0
    rw [Dict.get?_eq_none_iff] at h0
    unfold Dict.keys at h0
    rw [h2] at h0; exact h0 hcc
  have hlast : (Tables.outItems r (·.storages)).getLast? =
      some (Tables.outItems r (·.storages))[(elements s (·.storages)).length - 1] := by
    rw [List.getLast?_eq_getElem?, hlen, List.getElem?_eq_getElem hi2]
  rw [l1 _ hlast (k * s.horizon + t) (by rw [hblk]; exact idx_lt hk ht) c.1 v
    (by simp only [L, h1]; exact hv), hv]
  rfl

/-! ### Sources of converters -/

theorem Frame.assign_cut (a b : ℕ) (f : Frame) (p : String × Fill) :
    Frame.assign a b f p = Frame.assign a (min b f.size) f p := by
  unfold Frame.assign
  simp

theorem Frame.assignAll_cut (a b : ℕ) (l : List (String × Fill)) (f : Frame) :
    Frame.assignAll a b l f = Frame.assignAll a (min b f.size) l f := by
  induction l generalizing f with
  | nil => rfl
  | cons p l ih =>
    unfold Frame.assignAll at ih ⊢
    rw [List.foldlM_cons, List.foldlM_cons, ← Frame.assign_cut]
    cases h : Frame.assign a b f p with
    | error e => rfl
    | ok f1 =>
      simp only [bind, Except.bind]
      rw [ih f1, assign_size h]

/-- the sources of each converter that the table can hold -/
theorem srcConvLoop_shape {s : Study} {r : Result} (hpos : 0 < s.horizon * s.nbScn)
    {ps : List (String × Converter)} (hmax : ∀ p ∈ ps, ∀ l, Tables.convFlatten p.2.max = .ok l →
      l.length = s.horizon * s.nbScn) (h1 : ∀ p ∈ ps, p.2.srcRatios ≠ []) {a : ℕ} {f f' : Frame}
    (hs : f.size = a + s.horizon * s.nbScn * (ps.map fun p => p.2.srcRatios.length).sum)
    (h : Tables.srcConvLoop s r ps a f = .ok f') :
    (∀ p ∈ ps.dropLast, p.2.srcRatios.length = 1) ∧ ∀ p ∈ ps, p.2.srcRatios.length ≤ 2 := by
  induction ps generalizing a f with
  | nil => simp
  | cons p ps ih =>
    obtain ⟨name, v⟩ := p
    rw [Tables.srcConvLoop] at h
    simp only [bind, Except.bind] at h
    split at h
    · cases h
    rename_i f1 hf1
    split at h
    · cases h
    rename_i r1 hr1
    have hs1 := (assignAll_size hf1).1
    have hne : v.srcRatios ≠ [] := h1 _ List.mem_cons_self
    have hmx : ∀ l, Tables.convFlatten v.max = .ok l → l.length = s.horizon * s.nbScn := hmax _ List.mem_cons_self
    simp only [List.map_cons, List.sum_cons] at hs
    generalize hB : s.horizon * s.nbScn = B at *
    generalize hS : (ps.map fun p => p.2.srcRatios.length).sum = S at *
    cases hv : v.srcRatios with
    | nil => exact absurd hv hne
    | cons q qs =>
      rw [hv] at hr1 hs
      rw [List.zipIdx_cons, Tables.srcLoop] at hr1
      simp only [bind, Except.bind, Nat.zero_add] at hr1
      split at hr1
      swap
      · cases hr1
      split at hr1
      · cases hr1
      split at hr1
      · cases hr1
      split at hr1
      · cases hr1
      split at hr1
      · cases hr1
      rename_i f2 hf2
      have hs2 := (assignAll_size hf2).1
      rw [hB, Nat.mul_one] at hr1
      cases qs with
      | nil =>
        simp only [List.zipIdx_nil, Tables.srcLoop, Except.ok.injEq] at hr1
        subst hr1
        simp only [List.length_singleton] at hs
        obtain ⟨i1, i2⟩ := ih (fun x hx => hmax x (List.mem_cons_of_mem _ hx))
          (fun x hx => h1 x (List.mem_cons_of_mem _ hx)) (by rw [hs2, hs1, hs]; ring) h
        refine ⟨?_, ?_⟩
        · intro x hx
          cases ps with
          | nil => simp at hx
          | cons y ys =>
            rw [List.dropLast_cons_cons] at hx
            rcases List.mem_cons.mp hx with rfl | hx
            · simp [hv]
            · exact i1 x hx
        · intro x hx
          rcases List.mem_cons.mp hx with rfl | hx
          · simp [hv]
          · exact i2 x hx
      | cons q' qs =>
        rw [List.zipIdx_cons, Tables.srcLoop] at hr1
        simp only [bind, Except.bind, hB] at hr1
        split at hr1
        swap
        · cases hr1
        split at hr1
        · cases hr1
        rename_i mx hmx'
        split at hr1
        · cases hr1
        split at hr1
        · cases hr1
        split at hr1
        · cases hr1
        rename_i f3 hf3
        have hlen := (assignAll_size hf3).2 "max" (mx.map .num) (by simp [Fill.nums])
        rw [List.length_map, hmx mx hmx', hs2, hs1, hs] at hlen
        simp only [List.length_cons] at hs hlen
        have hBq : B * (qs.length + 1 + 1 + S) = 2 * B + B * (qs.length + S) := by ring
        have hB2 : B * (0 + 1 + 1) = 2 * B := by ring
        rw [hBq, hB2] at hlen
        have hz : B * (qs.length + S) = 0 := by omega
        rcases Nat.mul_eq_zero.mp hz with h0 | h0
        · omega
        have hq0 : qs.length = 0 := by omega
        have hS0 : S = 0 := by omega
        have hps : ps = [] := by
          cases ps with
          | nil => rfl
          | cons y ys =>
            exfalso
            have h2 := h1 y (by simp)
            have h3 : 0 < y.2.srcRatios.length := List.length_pos_iff.mpr h2
            simp only [List.map_cons, List.sum_cons] at hS
            omega
        subst hps
        refine ⟨by simp, ?_⟩
        intro x hx
        obtain rfl : x = (name, v) := by simpa using hx
        simp [hv, hq0]

/-! ### Two sources in the last converter -/

theorem get_tile2 {h n j k t : ℕ} (hj : j < 2) (hk : k < n) (ht : t < h) :
    (NumVal.tile (arange h) (n * 2))[j * (n * h) + (k * h + t)]? = some (t : ℚ) := by
  have e : j * (n * h) + (k * h + t) = (j * n + k) * h + t := by ring
  have hlt : j * n + k < n * 2 := by
    have : j * n ≤ 1 * n := Nat.mul_le_mul_right _ (by omega)
    omega
  rw [e, get_tile hlt ht]

theorem get_repeat2 {h n j k t : ℕ} (hj : j < 2) (hk : k < n) (ht : t < h) :
    (NumVal.repeatEach (arange n) (h * 2))[j * (n * h) + (k * h + t)]? = some (((j * n + k) / 2 : ℕ) : ℚ) := by
  have hlt : j * n + k < n * 2 := by
    have : j * n ≤ 1 * n := Nat.mul_le_mul_right _ (by omega)
    omega
  have hd : (j * n + k) / 2 < n := by omega
  have hm := Nat.div_add_mod (j * n + k) 2
  have hm2 := Nat.mod_lt (j * n + k) (by omega : 0 < 2)
  generalize (j * n + k) / 2 = d at *
  generalize (j * n + k) % 2 = m at *
  have e : j * (n * h) + (k * h + t) = d * (h * 2) + (m * h + t) := by
    have : j * (n * h) + (k * h + t) = (j * n + k) * h + t := by ring
    rw [this, ← hm]
    ring
  have hlt' : m * h + t < h * 2 := by
    have : m * h ≤ 1 * h := Nat.mul_le_mul_right _ (by omega)
    omega
  rw [e, get_repeat hd hlt']

/-- the sources of a converter, as the specification lists them -/
def sourcesOf (p : String × Converter) : List (Converter × String × String × String × NumVal) :=
  p.2.srcRatios.map fun q => (p.2, p.1, q.1.getD 0 "", q.1.getD 1 "", q.2)

theorem srcLast_two {s : Study} {r : Result} (hb : Built s) (hm : Mirrors s r) (hc : CompleteConverters s)
    {p : String × Converter} (hp : p ∈ s.converters) (h2 : p.2.srcRatios.length = 2) {m : ℕ} {f : Frame}
    (hs : f.size = (m + 2) * (s.horizon * s.nbScn)) (hnames : f.names = Tables.srcNames ∧ m = 0 ∨
      f.names = Tables.srcNames ++ [("t", true), ("scn", true)]) :
    ∃ f', Tables.srcConvLoop s r [p] (m * (s.horizon * s.nbScn)) f = .ok f' ∧ f'.size = f.size ∧
      f'.names = Tables.srcNames ++ [("t", true), ("scn", true)] ∧
      (∀ i < m * (s.horizon * s.nbScn), f'.row i = f.row i) ∧
      ∀ j e, (sourcesOf p)[j]? = some e → ∀ k < s.nbScn, ∀ t < s.horizon,
        f'.row (m * (s.horizon * s.nbScn) + (j * (s.nbScn * s.horizon) + (k * s.horizon + t))) =
          Dict.set (sourceRow0 r e k t) "scn" (.num ((j * s.nbScn + k) / 2 : ℕ)) := by
  have hi := Built.inv hb
  have hz := (Built.sized hb).2
  obtain ⟨name, v⟩ := p
  obtain ⟨q0, q1, hq⟩ := List.length_eq_two.mp h2
  obtain ⟨key0, ratio0⟩ := q0
  obtain ⟨key1, ratio1⟩ := q1
  simp only at hq
  obtain ⟨g0, d0, n0, hkey0, _⟩ := (hi.convs _ hp).sources key0 (by simp only; rw [hq]; simp)
  obtain ⟨g1, d1, n1, hkey1, _⟩ := (hi.convs _ hp).sources key1 (by simp only; rw [hq]; simp)
  subst hkey0
  subst hkey1
  obtain ⟨o, ho, _, hsrc⟩ := conv_out hi hm hp
  simp only at ho hsrc
  have hnd : ([g0, d0] : List String) ≠ [g1, d1] := by
    have := hi.names.sources _ hp
    simp only at this
    rw [hq] at this
    simpa using this
  rw [hq] at hsrc
  obtain ⟨fl0, fl1, hf0, hf1, hfs⟩ : ∃ fl0 fl1, Full s fl0 ∧ Full s fl1 ∧
      o.flowSrc = [([g0, d0], fl0), ([g1, d1], fl1)] := by
    generalize o.flowSrc = fs at hsrc
    cases hsrc with
    | @cons _ b _ l' hab hrest =>
      cases hrest with
      | @cons _ b' _ l'' hab' hrest' =>
        cases hrest'
        obtain ⟨k1, x1⟩ := b
        obtain ⟨k2, x2⟩ := b'
        obtain ⟨e1, e2⟩ := hab
        obtain ⟨e3, e4⟩ := hab'
        simp only at e1 e2 e3 e4
        subst e1
        subst e3
        exact ⟨x1, x2, e2, e4, rfl⟩
  obtain ⟨vm, em, hvm⟩ := convFlatten_ok (hc _ hp).2
  simp only at em hvm
  have hzm := (hz _ hp).2.2 vm em
  have hzr0 : NumVal.Sized s.horizon s.nbScn ratio0 := (hz _ hp).1 ([g0, d0], ratio0) (by simp only; rw [hq]; simp)
  have hzr1 : NumVal.Sized s.horizon s.nbScn ratio1 := (hz _ hp).1 ([g1, d1], ratio1) (by simp only; rw [hq]; simp)
  have hname : v.name = name := (hi.convs _ hp).name
  have hflow0 : Dict.get? o.flowSrc [g0, d0] = some fl0 := by rw [hfs]; simp [Dict.get?]
  have hflow1 : Dict.get? o.flowSrc [g1, d1] = some fl1 := by
    rw [hfs, Dict.get?_cons, if_neg hnd, Dict.get?_cons, if_pos rfl]
  have hB : s.horizon * s.nbScn = s.nbScn * s.horizon := Nat.mul_comm _ _
  generalize hBB : s.horizon * s.nbScn = B at *
  generalize ha : m * B = a at *
  have hs' : f.size = a + 2 * B := by rw [hs, ← ha]; ring
  obtain ⟨f1, e1, s1, nm1, c1⟩ := Frame.assignAll_ok (a := a) (b := a + B * 2) (f := f)
    (l := [("name", .all (.str v.name)), ("t", .nums (NumVal.tile (arange s.horizon) (s.nbScn * 2))),
      ("scn", .nums (NumVal.repeatEach (arange s.nbScn) (s.horizon * 2)))]) (by omega) (by simp) (by
        have e1 : s.nbScn * 2 * s.horizon = B * 2 := by rw [← hBB]; ring
        have e2 : s.nbScn * (s.horizon * 2) = B * 2 := by rw [← hBB]; ring
        simp [Fill.fits_nums, Fill.fits_all, length_tile, length_repeatEach, length_arange, e1, e2])
  have hn1 : f1.names = Tables.srcNames ++ [("t", true), ("scn", true)] := by
    rw [nm1]
    rcases hnames with ⟨h, _⟩ | h <;> rw [h] <;> simp [Frame.created, Frame.Has, h, Tables.srcNames]
  obtain ⟨f2, e2, s2, nm2, c2⟩ := Frame.assignAll_ok (a := a) (b := a + B) (f := f1)
    (l := [("network", .all (.str g0)), ("node", .all (.str d0)), ("max", .nums vm.flatten),
      ("ratio", .nums ratio0.flatten), ("flow", .nums fl0.data)]) (by omega) (by simp) (by
        simp [Fill.fits_nums, Fill.fits_all, hzr0.flatten_length, hzm.flatten_length, hf0.2, hB])
  have hn2 : f2.names = Tables.srcNames ++ [("t", true), ("scn", true)] := by
    rw [nm2, hn1]
    simp [Frame.created, Frame.Has, hn1, Tables.srcNames]
  obtain ⟨f3, e3, s3, nm3, c3⟩ := Frame.assignAll_ok (a := a + B) (b := a + 2 * B) (f := f2)
    (l := [("network", .all (.str g1)), ("node", .all (.str d1)), ("max", .nums vm.flatten),
      ("ratio", .nums ratio1.flatten), ("flow", .nums fl1.data)]) (by omega) (by simp) (by
        have : a + 2 * B - (a + B) = B := by omega
        rw [this]
        simp [Fill.fits_nums, Fill.fits_all, hzr1.flatten_length, hzm.flatten_length, hf1.2, hB])
  have hn3 : f3.names = Tables.srcNames ++ [("t", true), ("scn", true)] := by
    rw [nm3, hn2]
    simp [Frame.created, Frame.Has, hn2, Tables.srcNames]
  refine ⟨f3, ?_, by rw [s3, s2, s1], hn3, ?_, ?_⟩
  · rw [Tables.srcConvLoop]
    simp only [bind, Except.bind, hq, List.length_cons, List.length_nil, Nat.zero_add, Nat.reduceAdd, hBB]
    rw [e1]
    simp only [List.zipIdx_cons, List.zipIdx_nil, Tables.srcLoop, bind, Except.bind, hvm, Dict.getE_of_get? ho,
      Dict.getE_of_get? hflow0, Dict.getE_of_get? hflow1, Nat.zero_add, Nat.mul_one, hBB]
    rw [e2]
    simp only
    rw [Frame.assignAll_cut]
    have hmin : min (a + B + B * (1 + 1)) f2.size = a + 2 * B := by rw [s2, s1, hs']; omega
    rw [hmin, e3]
    rfl
  · intro i hi'
    have hm0 : m ≠ 0 := by rintro rfl; simp at ha; omega
    have hf : f.names = Tables.srcNames ++ [("t", true), ("scn", true)] := by
      rcases hnames with ⟨_, h⟩ | h
      · exact absurd h hm0
      · exact h
    have x1 : ¬ (a ≤ i ∧ i < a + B * 2) := by omega
    have x2 : ¬ (a ≤ i ∧ i < a + B) := by omega
    have x3 : ¬ (a + B ≤ i ∧ i < a + 2 * B) := by omega
    unfold Frame.row
    rw [hn3, hf]
    simp only [Tables.srcNames, List.cons_append, List.nil_append, List.map_cons, List.map_nil, c3, c2, c1, Dict.get?,
      Frame.Has, hn1, hn2, hf]
    simp [x1, x2, x3]
  · intro j e hj k hk t ht
    have hj2 : j < 2 := by
      have := (List.getElem?_eq_some_iff.mp hj).1
      simpa [sourcesOf, hq] using this
    have hlt : k * s.horizon + t < B := by rw [hB]; exact idx_lt hk ht
    have hjB : j = 0 ∨ j = 1 := by omega
    unfold Frame.row
    rw [hn3]
    rcases hjB with rfl | rfl
    · simp only [sourcesOf, hq, List.map_cons, List.map_nil, List.getElem?_cons_zero, Option.some.injEq] at hj
      subst hj
      have x1 : a ≤ a + (0 * (s.nbScn * s.horizon) + (k * s.horizon + t)) ∧
          a + (0 * (s.nbScn * s.horizon) + (k * s.horizon + t)) < a + B * 2 := by omega
      have x2 : a ≤ a + (0 * (s.nbScn * s.horizon) + (k * s.horizon + t)) ∧
          a + (0 * (s.nbScn * s.horizon) + (k * s.horizon + t)) < a + B := by omega
      have x3 : ¬ (a + B ≤ a + (0 * (s.nbScn * s.horizon) + (k * s.horizon + t)) ∧
          a + (0 * (s.nbScn * s.horizon) + (k * s.horizon + t)) < a + 2 * B) := by omega
      have y1 : a + (0 * (s.nbScn * s.horizon) + (k * s.horizon + t)) - a =
          0 * (s.nbScn * s.horizon) + (k * s.horizon + t) := by omega
      have y2 : 0 * (s.nbScn * s.horizon) + (k * s.horizon + t) = k * s.horizon + t := by omega
      have z1 := get_tile2 (n := s.nbScn) hj2 hk ht
      have z2 := get_repeat2 (n := s.nbScn) hj2 hk ht
      rw [y2] at z1 z2 y1 x1 x2 x3
      rw [y2]
      simp only [Tables.srcNames, List.cons_append, List.nil_append, List.map_cons, List.map_nil, c3, c2, c1, Dict.get?,
        Frame.Has, hn1, hn2, x1, x2, x3, y1]
      simp [Fill.at_all, Fill.at_nums (val_sized hzr0 hk ht), Fill.at_nums (val_sized hzm hk ht),
        Fill.at_nums (cell_full hf0 hk ht), Fill.at_nums z1, Fill.at_nums z2, sourceRow0, Dict.set, hname, em, fval]
      have : ((Dict.get? r.converters name).bind fun o => Dict.get? o.flowSrc [g0, d0]) = some fl0 := by
        rw [ho, Option.bind_some, hflow0]
      rw [this]
    · simp only [sourcesOf, hq, List.map_cons, List.map_nil, List.getElem?_cons_succ, List.getElem?_cons_zero,
        Option.some.injEq] at hj
      subst hj
      have y2 : 1 * (s.nbScn * s.horizon) + (k * s.horizon + t) = B + (k * s.horizon + t) := by omega
      have z1 := get_tile2 (n := s.nbScn) hj2 hk ht
      have z2 := get_repeat2 (n := s.nbScn) hj2 hk ht
      rw [y2] at z1 z2
      rw [y2]
      have x1 : a ≤ a + (B + (k * s.horizon + t)) ∧ a + (B + (k * s.horizon + t)) < a + B * 2 := by omega
      have x2 : ¬ (a ≤ a + (B + (k * s.horizon + t)) ∧ a + (B + (k * s.horizon + t)) < a + B) := by omega
      have x3 : a + B ≤ a + (B + (k * s.horizon + t)) ∧ a + (B + (k * s.horizon + t)) < a + 2 * B := by omega
      have y1 : a + (B + (k * s.horizon + t)) - a = B + (k * s.horizon + t) := by omega
      have y3 : a + (B + (k * s.horizon + t)) - (a + B) = k * s.horizon + t := by omega
      simp only [Tables.srcNames, List.cons_append, List.nil_append, List.map_cons, List.map_nil, c3, c2, c1, Dict.get?,
        Frame.Has, hn1, hn2, x1, x3, y1, y3]
      simp [Fill.at_all, Fill.at_nums (val_sized hzr1 hk ht), Fill.at_nums (val_sized hzm hk ht),
        Fill.at_nums (cell_full hf1 hk ht), Fill.at_nums z1, Fill.at_nums z2, sourceRow0, Dict.set, hname, em, fval]
      have : ((Dict.get? r.converters name).bind fun o => Dict.get? o.flowSrc [g1, d1]) = some fl1 := by
        rw [ho, Option.bind_some, hflow1]
      rw [this]

/-- the scenario written in the rows of the `i`-th source, when the last of `c` converters has two sources -/
def labelOf (s : Study) (i k : ℕ) : ℕ :=
  if i + 1 < s.converters.length then k else ((i + 1 - s.converters.length) * s.nbScn + k) / 2

theorem Frame.row_of_div {f : Frame} (hn : f.names = Tables.srcNames ++ [("t", true), ("scn", true)]) {i : ℕ}
    {r : Result} {e : Converter × String × String × String × NumVal} {k t x : ℕ}
    (h : f.row i = Dict.set (sourceRow0 r e k t) "scn" (.num x)) :
    Frame.row { f with cell := fun c i =>
      if c = "max" then (f.cell "max" i).div (f.cell "ratio" i) else f.cell c i } i =
      Dict.set (sourceRow r e k t) "scn" (.num x) := by
  unfold Frame.row at h ⊢
  simp only [hn] at h ⊢
  simp only [Tables.srcNames, List.cons_append, List.nil_append, List.map_cons, List.map_nil,
    sourceRow0, List.cons.injEq, Prod.mk.injEq, true_and, Dict.set, String.reduceEq, if_false, if_true] at h
  obtain ⟨e1, e2, e3, e4, e5, e6, e7, e8, _⟩ := h
  simp [Tables.srcNames, sourceRow, e1, e2, e3, e4, e5, e6, e7, e8, div_quotient, Dict.set]
  rfl

theorem sources_append {s : Study} {ps : List (String × Converter)} {p : String × Converter}
    (h : s.converters = ps ++ [p]) : sources s = ps.flatMap sourcesOf ++ sourcesOf p := by
  unfold sources
  rw [h, List.flatMap_append]
  change ps.flatMap sourcesOf ++ [p].flatMap sourcesOf = _
  rw [List.flatMap_singleton]

/-- the table of intakes when the last converter has two sources and the others have one -/
theorem srcConverter_two {s : Study} {r : Result} (hb : Built s) (hm : Mirrors s r) (junk : Junk)
    (hc : CompleteConverters s) {ps : List (String × Converter)} {p : String × Converter}
    (hps : s.converters = ps ++ [p]) (h1 : ∀ q ∈ ps, q.2.srcRatios.length = 1) (h2 : p.2.srcRatios.length = 2) :
    ∃ f, Tables.srcConverter junk s r = .ok f ∧ f.size = (sources s).zipIdx.length * (s.nbScn * s.horizon) ∧
      f.Lists s.nbScn s.horizon (sources s).zipIdx (fun e k t =>
        Dict.set (sourceRow r e.1 k t) "scn" (.num (labelOf s e.2 k))) := by
  have hcr : ∀ sz, (Frame.mk sz Tables.srcNames (junk "src_converter")).created
      ["name", "t", "scn", "network", "node", "max", "ratio", "flow"] = [("t", true), ("scn", true)] := by
    intro sz
    simp [Frame.created, Frame.Has, Tables.srcNames]
  have hmem : ∀ q ∈ ps, q ∈ s.converters := fun q hq => by rw [hps]; exact List.mem_append_left _ hq
  have hp : p ∈ s.converters := by rw [hps]; simp
  have hF : List.Forall₂ (fun a e => ∃ l, srcData s r a = .ok l ∧
      l.map Prod.fst = ["name", "t", "scn", "network", "node", "max", "ratio", "flow"] ∧
      (∀ p ∈ l, p.2.Fits (s.horizon * s.nbScn)) ∧
      ∀ k < s.nbScn, ∀ t < s.horizon,
        rowOf (Tables.srcNames ++ [("t", true), ("scn", true)]) l (k * s.horizon + t) =
          sourceRow0 r e k t) ps (ps.flatMap sourcesOf) :=
    forall₂_flatMap_single fun q hq => srcData_match hb hm hc (hmem q hq) (h1 q hq)
  have hlen := hF.length_eq
  have hl2 : (sourcesOf p).length = 2 := by simp [sourcesOf, h2]
  have hsl : (sources s).length = ps.length + 2 := by
    rw [sources_append hps, List.length_append, ← hlen, hl2]
  have hcount : Tables.countSources s = (sources s).length := by
    unfold Tables.countSources sources
    simp [List.length_flatMap]
  have hsize : s.horizon * s.nbScn * Tables.countSources s = (ps.length + 2) * (s.horizon * s.nbScn) := by
    rw [hcount, hsl, Nat.mul_comm]
  let L : String × Converter → List (String × Fill) := fun a => match srcData s r a with
    | .ok l => l
    | .error _ => []
  have hd : ∀ a ∈ ps, srcData s r a = .ok (L a) ∧ (L a).map Prod.fst =
      ["name", "t", "scn", "network", "node", "max", "ratio", "flow"] ∧
        ∀ p ∈ L a, p.2.Fits (s.horizon * s.nbScn) := by
    intro a ha
    obtain ⟨e, _, l, x1, x2, x3, _⟩ := Forall₂.exists_left hF ha
    have : L a = l := by simp only [L, x1]
    rw [this]
    exact ⟨x1, x2, x3⟩
  obtain ⟨f0, e0, s0, n0, c0, _⟩ := Frame.fillBlocks_ok (blk := s.horizon * s.nbScn) (by decide) hd (n := 0)
    (f := ⟨s.horizon * s.nbScn * Tables.countSources s, Tables.srcNames, junk "src_converter"⟩)
    (by simp only; rw [hsize]; exact Nat.mul_le_mul_right _ (by omega))
  rw [hcr] at n0
  simp only at s0 n0
  rw [hsize] at s0
  obtain ⟨f1, e1, s1, n1, r1, c1⟩ := srcLast_two hb hm hc hp h2 (m := ps.length) (f := f0) s0 (by
    by_cases h0 : ps = []
    · left; rw [n0, if_pos h0, h0]; simp
    · right; rw [n0, if_neg h0])
  have hloop := srcConvLoop_then s r (ps := ps) [p] (fun a ha => ⟨L a, (hd a ha).1⟩) 0 _ e0
  rw [Nat.zero_add, Nat.zero_mul, ← hps, e1] at hloop
  have hrow : ∀ j e, ps[j]? = some e → ∀ k < s.nbScn, ∀ t < s.horizon, ∀ x, (ps.flatMap sourcesOf)[j]? = some x →
      f1.row (j * (s.horizon * s.nbScn) + (k * s.horizon + t)) = sourceRow0 r x k t := by
    intro j a hj k hk t ht x hx
    have hjl := (List.getElem?_eq_some_iff.mp hj).1
    have hlt : k * s.horizon + t < s.horizon * s.nbScn := by rw [Nat.mul_comm s.horizon]; exact idx_lt hk ht
    have hlt2 : j * (s.horizon * s.nbScn) + (k * s.horizon + t) < ps.length * (s.horizon * s.nbScn) :=
      idx_lt hjl hlt
    rw [r1 _ hlt2]
    obtain ⟨l, x1, x2, x3, x4⟩ := hF.get hjl (by rw [← hlen]; exact hjl)
    simp only [List.get_eq_getElem] at x1 x4
    have ea : ps[j] = a := by rw [List.getElem?_eq_getElem hjl] at hj; exact Option.some.inj hj
    have ex : (ps.flatMap sourcesOf)[j]'(by rw [← hlen]; exact hjl) = x := by
      rw [List.getElem?_eq_getElem (by rw [← hlen]; exact hjl)] at hx; exact Option.some.inj hx
    rw [ea] at x1
    rw [ex] at x4
    rw [← x4 k hk t ht]
    have hne : ps ≠ [] := by rintro rfl; simp at hjl
    unfold Frame.row rowOf
    rw [n0, if_neg hne]
    refine List.map_congr_left ?_
    intro c hcm
    have hcc : c.1 ∈ ["name", "t", "scn", "network", "node", "max", "ratio", "flow"] := by
      have : ∀ c ∈ Tables.srcNames ++ [("t", true), ("scn", true)],
        c.1 ∈ ["name", "t", "scn", "network", "node", "max", "ratio", "flow"] := by decide
      exact this c hcm
    obtain ⟨v, hv⟩ : ∃ v, Dict.get? l c.1 = some v := by
      rw [← Option.isSome_iff_exists, ← Option.ne_none_iff_isSome]
      intro h0
      rw [Dict.get?_eq_none_iff] at h0
      unfold Dict.keys at h0
      rw [x2] at h0; exact h0 hcc
    have hLl : L a = l := by simp only [L, x1]
    have := c0 j a hj (k * s.horizon + t) hlt c.1 v (by rw [hLl]; exact hv)
    rw [Nat.zero_add] at this
    rw [this, hv]
    rfl
  have hclen : s.converters.length = ps.length + 1 := by rw [hps]; simp
  have hB : s.nbScn * s.horizon = s.horizon * s.nbScn := Nat.mul_comm _ _
  refine ⟨_, by unfold Tables.srcConverter; rw [hloop]; rfl, ?_, ?_, ?_, ?_⟩
  · simp only [List.length_zipIdx]
    rw [s1, s0, hsl, hB]
  · simp only [List.length_zipIdx]
    rw [s1, s0, hsl, hB]
  · rintro j ⟨e, j'⟩ hj k hk t ht
    obtain ⟨hj1, hj2⟩ : j' = j ∧ (sources s)[j]? = some e := by
      rw [List.getElem?_zipIdx] at hj
      obtain ⟨a, ha, hae⟩ := Option.map_eq_some_iff.mp hj
      simp only [Prod.mk.injEq, Nat.zero_add] at hae
      obtain ⟨rfl, rfl⟩ := hae
      exact ⟨rfl, ha⟩
    subst hj1
    refine Frame.row_of_div n1 ?_
    unfold labelOf
    rw [hclen]
    by_cases hlt : j' < ps.length
    · have : (ps.flatMap sourcesOf)[j']? = some e := by
        rw [sources_append hps, List.getElem?_append_left (by rw [← hlen]; exact hlt)] at hj2
        exact hj2
      rw [hB, hrow j' _ (List.getElem?_eq_getElem hlt) k hk t ht e this, if_pos (by omega)]
      simp [sourceRow0, Dict.set]
    · have : (sourcesOf p)[j' - ps.length]? = some e := by
        rw [sources_append hps, List.getElem?_append_right (by rw [← hlen]; omega), ← hlen] at hj2
        exact hj2
      have h3 := c1 (j' - ps.length) e this k hk t ht
      rw [if_neg (by omega)]
      have e5 : j' + 1 - (ps.length + 1) = j' - ps.length := by omega
      rw [e5, ← h3]
      congr 1
      rw [hB]
      have : j' = ps.length + (j' - ps.length) := by omega
      conv_lhs => rw [this]
      ring
  · intro i hi1 hi2
    exfalso
    simp only [List.length_zipIdx] at hi1 hi2
    rw [s1, s0] at hi2
    rw [hsl, hB] at hi1
    omega

/-! ### Blocks of a list -/

theorem getElem?_flatMap_block {α β : Type} {l : List α} {g : α → List β} {b : ℕ} (hg : ∀ e ∈ l, (g e).length = b)
    {j m : ℕ} {e : α} (hj : l[j]? = some e) (hm : m < b) : (l.flatMap g)[j * b + m]? = (g e)[m]? := by
  induction l generalizing j with
  | nil => simp at hj
  | cons a l ih =>
    rw [List.flatMap_cons]
    have ha := hg a List.mem_cons_self
    cases j with
    | zero =>
      simp only [List.getElem?_cons_zero, Option.some.injEq] at hj
      subst hj
      rw [Nat.zero_mul, Nat.zero_add, List.getElem?_append_left (by omega)]
    | succ j =>
      rw [List.getElem?_cons_succ] at hj
      have e1 : (j + 1) * b + m = b + (j * b + m) := by ring
      rw [e1, List.getElem?_append_right (by omega), ha, Nat.add_sub_cancel_left]
      exact ih (fun x hx => hg x (List.mem_cons_of_mem _ hx)) hj

theorem getElem?_pairs {n h k t : ℕ} (hk : k < n) (ht : t < h) : (pairs n h)[k * h + t]? = some (k, t) := by
  unfold pairs
  rw [getElem?_flatMap_block (e := k) (by simp) (by rw [List.getElem?_range hk]) ht, List.getElem?_map,
    List.getElem?_range ht]
  rfl

theorem getElem?_grid {α : Type} (s : Study) (f : ℕ → ℕ → α) {k t : ℕ} (hk : k < s.nbScn) (ht : t < s.horizon) :
    (grid s f)[k * s.horizon + t]? = some (f k t) := by
  rw [grid_eq, List.getElem?_map, getElem?_pairs hk ht]
  rfl

theorem length_grid {α : Type} (s : Study) (f : ℕ → ℕ → α) : (grid s f).length = s.nbScn * s.horizon := by
  rw [grid_eq, List.length_map, length_pairs]

end Hadar
