import Verif.Proofs.Tables

/-! # The tables of converters -/

namespace Hadar

open Spec

/-- the converter of the result -/
theorem conv_out {s : Study} {r : Result} (hi : StudyInv s) (hm : Mirrors s r)
    {p : String × Converter} (hp : p ∈ s.converters) :
    ∃ o, r.converters.get? p.1 = some o ∧ Full s o.flowDest ∧
      List.Forall₂ (fun a b => a.1 = b.1 ∧ Full s b.2) p.2.srcRatios o.flowSrc := by
  obtain ⟨q, hq, h1, _, h3, h4⟩ := Forall₂.exists_left hm.converters hp
  refine ⟨q.2, ?_, h4, h3⟩
  have hn : (r.converters.map Prod.fst).Nodup := by
    rw [forall₂_keys hm.converters (fun p q h => h.1)]; exact hi.names.converters
  rw [h1]
  exact Dict.get?_of_mem hn hq

theorem convFlatten_ok {c : ConvField} (h : c ≠ .int0) : ∃ v, c = .val v ∧
    Tables.convFlatten c = .ok v.flatten := by
  cases c with
  | int0 => exact absurd rfl h
  | val v => exact ⟨v, rfl, rfl⟩

theorem destConverter_lists {s : Study} {r : Result} (hb : Built s) (hm : Mirrors s r) (junk : Junk)
    (hc : CompleteConverters s)
    (hn : s.converters.length * (s.nbScn * s.horizon) ≤
      Tables.countSources s * (s.nbScn * s.horizon)) :
    ∃ f, Tables.destConverter junk s r = .ok f ∧
      f.size = Tables.countSources s * (s.nbScn * s.horizon) ∧
      (s.converters ≠ [] → f.names = Tables.destNames ++ [("t", true), ("scn", true)]) ∧
      (s.converters = [] → f.names = Tables.destNames) ∧
      f.Lists s.nbScn s.horizon s.converters (destRow r) := by
  have hi := Built.inv hb
  have hz := (Built.sized hb).2
  have hcr : ∀ sz, (Frame.mk sz Tables.destNames (junk "dest_converter")).created
      ["name", "cost", "max", "network", "node", "flow", "t", "scn"] = [("t", true), ("scn", true)] := by
    intro sz
    simp [Frame.created, Frame.Has, Tables.destNames]
  have hF : List.Forall₂ (fun a e => ∃ l, Tables.destData s r a = .ok l ∧
      l.map Prod.fst = ["name", "cost", "max", "network", "node", "flow", "t", "scn"] ∧
      (∀ p ∈ l, p.2.Fits (s.horizon * s.nbScn)) ∧
      ∀ k < s.nbScn, ∀ t < s.horizon,
        rowOf (Tables.destNames ++ [("t", true), ("scn", true)]) l (k * s.horizon + t) = destRow r e k t)
      s.converters s.converters := by
    rw [List.forall₂_same]
    intro p hp
    obtain ⟨o, ho, hfull, _⟩ := conv_out hi hm hp
    obtain ⟨vc, ec, hvc⟩ := convFlatten_ok (hc p hp).1
    obtain ⟨vm, em, hvm⟩ := convFlatten_ok (hc p hp).2
    have hzc := (hz p hp).2.1 vc ec
    have hzm := (hz p hp).2.2 vm em
    have hname := (hi.convs p hp).name
    refine ⟨_, by
      unfold Tables.destData
      rw [hvc, hvm]
      simp only [bind, Except.bind]
      rw [Dict.getE_of_get? ho]; rfl, rfl, ?_, ?_⟩
    · simp [Tables.timeCols, Fill.fits_nums, Fill.fits_all, hzc.flatten_length, hzm.flatten_length,
        hfull.2, length_tile, length_repeatEach, length_arange, Nat.mul_comm]
    · intro k hk t ht
      simp [rowOf, Dict.get?, Tables.destNames, destRow, Tables.timeCols, ec, em, fval, ho,
        Fill.at_nums (val_sized hzc hk ht), Fill.at_nums (val_sized hzm hk ht),
        Fill.at_nums (cell_full hfull hk ht), Fill.at_nums (get_tile hk ht),
        Fill.at_nums (get_repeat hk ht), Fill.at_all, hname]
  obtain ⟨f, h1, h2, h3, h4, h5⟩ := Frame.lists_of_fill (n := s.nbScn) (h := s.horizon)
    (cols := ["name", "cost", "max", "network", "node", "flow", "t", "scn"])
    (R := destRow r) (Nat.mul_comm s.horizon s.nbScn) (by decide)
    (f := ⟨s.horizon * s.nbScn * Tables.countSources s, Tables.destNames, junk "dest_converter"⟩)
    (by rw [hcr]; exact hF)
    (by simp [Tables.destNames])
    (by rw [Nat.mul_comm s.horizon, Nat.mul_comm (s.nbScn * s.horizon)]; exact hn)
    (by
      by_cases h0 : s.converters = []
      · left; simp [h0, Tables.countSources]
      · right
        exact ⟨by simp [Frame.Has, Tables.destNames], by simp, h0⟩)
  rw [hcr] at h3
  exact ⟨f, h1, by rw [h2, Nat.mul_comm s.horizon, Nat.mul_comm (s.nbScn * s.horizon)], h3, h4, h5⟩

/-! ### Sources, when every converter has one source -/

/-- what is assigned for a converter with one source -/
def srcData (s : Study) (r : Result) (p : String × Converter) : Except PyErr (List (String × Fill)) :=
  match p.2.srcRatios with
  | [([g, d], ratio)] =>
    match Tables.convFlatten p.2.max, (r.converters.get? p.1).bind fun o => o.flowSrc.get? [g, d] with
    | .ok max, some flow =>
      .ok [("name", .all (.str p.2.name)), ("t", .nums (NumVal.tile (arange s.horizon) s.nbScn)),
        ("scn", .nums (NumVal.repeatEach (arange s.nbScn) s.horizon)),
        ("network", .all (.str g)), ("node", .all (.str d)),
        ("max", .nums max), ("ratio", .nums ratio.flatten), ("flow", .nums flow.data)]
    | _, _ => .error .valueError
  | _ => .error .valueError

theorem srcConvLoop_then (s : Study) (r : Result) {ps : List (String × Converter)}
    (qs : List (String × Converter)) (h : ∀ p ∈ ps, ∃ l, srcData s r p = .ok l) (j : ℕ) (f : Frame) {f' : Frame}
    (hf : Frame.fillBlocks (s.horizon * s.nbScn) (· + 1) (srcData s r) ps j f = .ok f') :
    Tables.srcConvLoop s r (ps ++ qs) (j * (s.horizon * s.nbScn)) f =
      Tables.srcConvLoop s r qs ((j + ps.length) * (s.horizon * s.nbScn)) f' := by
  induction ps generalizing j f with
  | nil => cases hf; rfl
  | cons p ps ih =>
    obtain ⟨l, hl⟩ := h p List.mem_cons_self
    have hj : j + (p :: ps).length = j + 1 + ps.length := by simp; omega
    rw [hj, List.cons_append]
    rw [Frame.fillBlocks, hl] at hf
    simp only [bind, Except.bind] at hf
    obtain ⟨name, v⟩ := p
    unfold srcData at hl
    split at hl
    · rename_i g d ratio hsrc
      split at hl
      · rename_i mx flow hmx hflow
        cases hl
        simp only at hsrc hmx hflow
        obtain ⟨o, ho, hfl⟩ := Option.bind_eq_some_iff.mp hflow
        rw [Tables.srcConvLoop]
        simp only [hsrc, List.length_singleton, Nat.mul_one, List.zipIdx_cons, List.zipIdx_nil,
          Nat.zero_add, bind, Except.bind]
        have e1 : j * (s.horizon * s.nbScn) + s.horizon * s.nbScn = (j + 1) * (s.horizon * s.nbScn) := by
          ring
        rw [e1]
        generalize ha : j * (s.horizon * s.nbScn) = a at hf
        generalize hb' : (j + 1) * (s.horizon * s.nbScn) = b at hf
        have e2 : Frame.assignAll a b [("name", .all (.str v.name)),
            ("t", .nums (NumVal.tile (arange s.horizon) s.nbScn)),
            ("scn", .nums (NumVal.repeatEach (arange s.nbScn) s.horizon)),
            ("network", .all (.str g)), ("node", .all (.str d)),
            ("max", .nums mx), ("ratio", .nums ratio.flatten), ("flow", .nums flow.data)] f =
          (Frame.assignAll a b [("name", .all (.str v.name)),
            ("t", .nums (NumVal.tile (arange s.horizon) s.nbScn)),
            ("scn", .nums (NumVal.repeatEach (arange s.nbScn) s.horizon))] f >>=
          Frame.assignAll a b [("network", .all (.str g)), ("node", .all (.str d)),
            ("max", .nums mx), ("ratio", .nums ratio.flatten), ("flow", .nums flow.data)]) :=
          Frame.assignAll_append a b [_, _, _] [_, _, _, _, _] f
        rw [e2] at hf
        simp only [bind, Except.bind] at hf
        cases h1 : Frame.assignAll a b [("name", .all (.str v.name)),
            ("t", .nums (NumVal.tile (arange s.horizon) s.nbScn)),
            ("scn", .nums (NumVal.repeatEach (arange s.nbScn) s.horizon))] f with
        | error e => rw [h1] at hf; cases hf
        | ok f1 =>
          rw [h1] at hf
          simp only at hf ⊢
          rw [Tables.srcLoop]
          simp only [bind, Except.bind, hmx, Dict.getE_of_get? ho, Dict.getE_of_get? hfl, Nat.zero_add,
            Nat.mul_one]
          have e3 : a + s.horizon * s.nbScn = b := by rw [← ha, ← hb']; ring
          rw [e3]
          cases h2 : Frame.assignAll a b [("network", .all (.str g)), ("node", .all (.str d)),
            ("max", .nums mx), ("ratio", .nums ratio.flatten), ("flow", .nums flow.data)] f1 with
          | error e => rw [h2] at hf; cases hf
          | ok f2 =>
            rw [h2] at hf
            simp only [Tables.srcLoop] at hf ⊢
            rw [← hb']
            exact ih (fun q hq => h q (List.mem_cons_of_mem _ hq)) (j + 1) f2 hf
      · cases hl
    · cases hl

theorem srcConvLoop_eq (s : Study) (r : Result) {ps : List (String × Converter)}
    (h : ∀ p ∈ ps, ∃ l, srcData s r p = .ok l) (j : ℕ) (f : Frame) {f' : Frame}
    (hf : Frame.fillBlocks (s.horizon * s.nbScn) (· + 1) (srcData s r) ps j f = .ok f') :
    Tables.srcConvLoop s r ps (j * (s.horizon * s.nbScn)) f = .ok f' := by
  have := srcConvLoop_then s r [] h j f hf
  rw [List.append_nil] at this
  exact this

/-- row of the table before the division by the ratio -/
def sourceRow0 (r : Result) (e : Converter × String × String × String × NumVal) (k t : ℕ) :
    Dict String Cell :=
  [("name", .str e.2.1), ("network", .str e.2.2.1), ("node", .str e.2.2.2.1),
   ("ratio", .num (val e.2.2.2.2 k t)),
   ("flow", .num (match (r.converters.get? e.2.1).bind fun o => o.flowSrc.get? [e.2.2.1, e.2.2.2.1] with
     | some a => cell a k t
     | none => 0)),
   ("max", .num (fval e.1.max k t)),
   ("t", .num t), ("scn", .num k)]

theorem forall₂_flatMap_single {α β : Type} {R : α → β → Prop} {l : List α} {g : α → List β}
    (h : ∀ a ∈ l, ∃ b, g a = [b] ∧ R a b) : List.Forall₂ R l (l.flatMap g) := by
  induction l with
  | nil => exact .nil
  | cons a l ih =>
    obtain ⟨b, hb, hR⟩ := h a List.mem_cons_self
    rw [List.flatMap_cons, hb]
    exact .cons hR (ih fun x hx => h x (List.mem_cons_of_mem _ hx))

/-- what is assigned for a converter with one source -/
theorem srcData_match {s : Study} {r : Result} (hb : Built s) (hm : Mirrors s r) (hc : CompleteConverters s)
    {p : String × Converter} (hp : p ∈ s.converters) (h1 : p.2.srcRatios.length = 1) :
    ∃ e, (p.2.srcRatios.map fun q => (p.2, p.1, q.1.getD 0 "", q.1.getD 1 "", q.2)) = [e] ∧
      ∃ l, srcData s r p = .ok l ∧
      l.map Prod.fst = ["name", "t", "scn", "network", "node", "max", "ratio", "flow"] ∧
      (∀ p ∈ l, p.2.Fits (s.horizon * s.nbScn)) ∧
      ∀ k < s.nbScn, ∀ t < s.horizon,
        rowOf (Tables.srcNames ++ [("t", true), ("scn", true)]) l (k * s.horizon + t) =
          sourceRow0 r e k t := by
  have hi := Built.inv hb
  have hz := (Built.sized hb).2
  obtain ⟨q, hq⟩ := List.length_eq_one_iff.mp h1
  obtain ⟨key, ratio⟩ := q
  obtain ⟨g, d, n, hkey, _⟩ := (hi.convs p hp).sources key (by rw [hq]; simp)
  subst hkey
  obtain ⟨o, ho, _, hsrc⟩ := conv_out hi hm hp
  rw [hq] at hsrc
  obtain ⟨key', flow, hk1, hk2, hfs⟩ : ∃ key' flow, [g, d] = key' ∧ Full s flow ∧
      o.flowSrc = [(key', flow)] := by
    generalize o.flowSrc = fs at hsrc
    cases hsrc with
    | @cons _ b _ l' hab hrest =>
      cases hrest
      exact ⟨b.1, b.2, hab.1, hab.2, rfl⟩
  subst hk1
  obtain ⟨vm, em, hvm⟩ := convFlatten_ok (hc p hp).2
  have hzm := (hz p hp).2.2 vm em
  have hzr : NumVal.Sized s.horizon s.nbScn ratio := (hz p hp).1 ([g, d], ratio) (by rw [hq]; simp)
  have hname := (hi.convs p hp).name
  have hflow : ((r.converters.get? p.1).bind fun o => o.flowSrc.get? [g, d]) = some flow := by
    rw [ho, Option.bind_some, hfs]; simp [Dict.get?]
  refine ⟨_, by rw [hq]; rfl, _, by unfold srcData; rw [hq]; simp only; rw [hvm, hflow], rfl, ?_, ?_⟩
  · simp [Fill.fits_nums, Fill.fits_all, hzr.flatten_length, hzm.flatten_length,
      hk2.2, length_tile, length_repeatEach, length_arange, Nat.mul_comm]
  · intro k hk t ht
    have e4 : ((Dict.get? r.converters p.1).bind fun o => Dict.get? o.flowSrc [g, d]) = some flow :=
      hflow
    simp [rowOf, Dict.get?, Tables.srcNames, sourceRow0, em, fval,
      Fill.at_nums (val_sized hzr hk ht), Fill.at_nums (val_sized hzm hk ht),
      Fill.at_nums (cell_full hk2 hk ht), Fill.at_nums (get_tile hk ht),
      Fill.at_nums (get_repeat hk ht), Fill.at_all, hname, e4]

theorem div_quotient (m q : ℚ) : (Cell.num m).div (.num q) = quotient m q := by
  unfold Cell.div quotient
  by_cases hq : q = 0
  · rcases lt_trichotomy m 0 with h | h | h
    · simp [hq, h, h.ne, h.le]
    · simp [hq, h]
    · simp [hq, h, h.ne', h.le]
  · simp [hq]

theorem srcConverter_lists {s : Study} {r : Result} (hb : Built s) (hm : Mirrors s r) (junk : Junk)
    (hc : CompleteConverters s)
    (h1s : ∀ p ∈ s.converters, p.2.srcRatios.length = 1) :
    ∃ f, Tables.srcConverter junk s r = .ok f ∧
      f.size = (sources s).length * (s.nbScn * s.horizon) ∧
      (s.converters ≠ [] → f.names = Tables.srcNames ++ [("t", true), ("scn", true)]) ∧
      (s.converters = [] → f.names = Tables.srcNames) ∧
      f.Lists s.nbScn s.horizon (sources s) (sourceRow r) := by
  have hcr : ∀ sz, (Frame.mk sz Tables.srcNames (junk "src_converter")).created
      ["name", "t", "scn", "network", "node", "max", "ratio", "flow"] = [("t", true), ("scn", true)] := by
    intro sz
    simp [Frame.created, Frame.Has, Tables.srcNames]
  have hF : List.Forall₂ (fun a e => ∃ l, srcData s r a = .ok l ∧
      l.map Prod.fst = ["name", "t", "scn", "network", "node", "max", "ratio", "flow"] ∧
      (∀ p ∈ l, p.2.Fits (s.horizon * s.nbScn)) ∧
      ∀ k < s.nbScn, ∀ t < s.horizon,
        rowOf (Tables.srcNames ++ [("t", true), ("scn", true)]) l (k * s.horizon + t) =
          sourceRow0 r e k t)
      s.converters (sources s) := by
    unfold sources
    apply forall₂_flatMap_single
    intro p hp
    exact srcData_match hb hm hc hp (h1s p hp)
  have hlen : Tables.countSources s = (sources s).length := by
    unfold Tables.countSources sources
    simp [List.length_flatMap]
  have hsize : s.horizon * s.nbScn * Tables.countSources s =
      (sources s).length * (s.horizon * s.nbScn) := by
    rw [hlen, Nat.mul_comm]
  obtain ⟨f, h1, h2, h3, h4, h5⟩ := Frame.lists_of_fill (n := s.nbScn) (h := s.horizon)
    (cols := ["name", "t", "scn", "network", "node", "max", "ratio", "flow"])
    (R := sourceRow0 r) (Nat.mul_comm s.horizon s.nbScn) (by decide)
    (f := ⟨s.horizon * s.nbScn * Tables.countSources s, Tables.srcNames, junk "src_converter"⟩)
    (by rw [hcr]; exact hF)
    (by simp [Tables.srcNames])
    (by rw [hsize]) (.inl (by rw [hsize]))
  rw [hcr] at h3
  have hne : s.converters = [] ↔ sources s = [] := by
    rw [← List.length_eq_zero_iff, ← List.length_eq_zero_iff, hF.length_eq]
  have hloop := srcConvLoop_eq s r (ps := s.converters) (fun p hp => by
    obtain ⟨e, _, l, hl, _⟩ := Forall₂.exists_left hF hp
    exact ⟨l, hl⟩) 0 _ h1
  rw [Nat.zero_mul] at hloop
  refine ⟨{ f with cell := fun c i =>
    if c = "max" then (f.cell "max" i).div (f.cell "ratio" i) else f.cell c i }, ?_, ?_, ?_, ?_, ?_⟩
  · unfold Tables.srcConverter
    rw [hloop]; rfl
  · simp only; rw [h2, hsize, Nat.mul_comm s.horizon]
  · exact fun h => h3 (fun h' => h (hne.mpr h'))
  · exact fun h => h4 (hne.mp h)
  · refine ⟨h5.size, ?_, ?_⟩
    · intro j e hj k hk t ht
      have h0 := h5.row j e hj k hk t ht
      have hne' : sources s ≠ [] := by rintro h; rw [h] at hj; simp at hj
      unfold Frame.row at h0 ⊢
      simp only [h3 hne'] at h0 ⊢
      simp only [Tables.srcNames, List.cons_append, List.nil_append, List.map_cons, List.map_nil,
        sourceRow0, List.cons.injEq, Prod.mk.injEq, true_and] at h0
      obtain ⟨e1, e2, e3, e4, e5, e6, e7, e8, _⟩ := h0
      simp [Tables.srcNames, sourceRow, e1, e2, e3, e4, e5, e6, e7, e8, div_quotient]
      rfl
    · intro i hi1 hi2
      exact h5.rest i hi1 hi2

/-! ### When the table of destinations could be built -/

theorem assign_size {a b : ℕ} {f f' : Frame} {p : String × Fill} (h : Frame.assign a b f p = .ok f') :
    f'.size = f.size := by
  unfold Frame.assign at h
  obtain ⟨c, v⟩ := p
  cases v with
  | all x => cases h; rfl
  | each l =>
    simp only at h
    split_ifs at h <;> (cases h; rfl)

theorem assignAll_size {a b : ℕ} {f f' : Frame} {l : List (String × Fill)}
    (h : Frame.assignAll a b l f = .ok f') : f'.size = f.size ∧
      ∀ c v, (c, Fill.each v) ∈ l → v.length = min b f.size - a := by
  induction l generalizing f with
  | nil => cases h; exact ⟨rfl, by simp⟩
  | cons p l ih =>
    unfold Frame.assignAll at h
    rw [List.foldlM_cons] at h
    cases h1 : Frame.assign a b f p with
    | error e => rw [h1] at h; cases h
    | ok f1 =>
      rw [h1] at h
      obtain ⟨s1, r1⟩ := ih (f := f1) h
      have s2 := assign_size h1
      refine ⟨by rw [s1, s2], ?_⟩
      intro c v hv
      rcases List.mem_cons.mp hv with rfl | hv
      · unfold Frame.assign at h1
        simp only at h1
        split_ifs at h1 with h0 <;> exact h0
      · rw [← s2]; exact r1 c v hv

theorem fillBlocks_size {α : Type} {blk : ℕ} {data : α → Except PyErr (List (String × Fill))}
    {es : List α} {n : ℕ} {f f' : Frame}
    (h : Frame.fillBlocks blk (· + 1) data es n f = .ok f') :
    (∀ e ∈ es, ∃ l, data e = .ok l) ∧ ((∀ e ∈ es, ∀ l, data e = .ok l →
      ∃ c v, (c, Fill.each v) ∈ l ∧ v.length = blk) → 0 < blk → es ≠ [] →
      (n + es.length) * blk ≤ f.size) := by
  induction es generalizing n f with
  | nil => exact ⟨by simp, fun _ _ h => absurd rfl h⟩
  | cons e es ih =>
    rw [Frame.fillBlocks] at h
    cases h1 : data e with
    | error x => rw [h1] at h; cases h
    | ok l =>
      rw [h1] at h
      simp only [bind, Except.bind] at h
      cases h2 : Frame.assignAll (n * blk) ((n + 1) * blk) l f with
      | error x => rw [h2] at h; cases h
      | ok f1 =>
        rw [h2] at h
        obtain ⟨i1, i2⟩ := ih h
        obtain ⟨s1, r1⟩ := assignAll_size h2
        refine ⟨?_, ?_⟩
        · intro x hx
          rcases List.mem_cons.mp hx with rfl | hx
          · exact ⟨l, h1⟩
          · exact i1 x hx
        · intro hv hpos _
          by_cases h0 : es = []
          · subst h0
            obtain ⟨c, v, hmem, hlen⟩ := hv e List.mem_cons_self l h1
            have := r1 c v hmem
            have e2 : (n + 1) * blk = n * blk + blk := by ring
            simp only [List.length_singleton]
            rw [hlen] at this
            omega
          · have := i2 (fun x hx => hv x (List.mem_cons_of_mem _ hx)) hpos h0
            rw [s1] at this
            have e3 : n + (e :: es).length = n + 1 + es.length := by simp; omega
            rw [e3]; exact this

/-- if the table of destinations could be built, every converter was given a destination and the table
is large enough -/
theorem destConverter_ok {s : Study} {r : Result} {junk : Junk} {f : Frame}
    (h : Tables.destConverter junk s r = .ok f) : CompleteConverters s ∧
      s.converters.length * (s.nbScn * s.horizon) ≤
        Tables.countSources s * (s.nbScn * s.horizon) := by
  unfold Tables.destConverter at h
  obtain ⟨h1, h2⟩ := fillBlocks_size h
  have hc : CompleteConverters s := by
    intro p hp
    obtain ⟨l, hl⟩ := h1 p hp
    unfold Tables.destData at hl
    constructor
    · intro h0
      rw [h0] at hl; cases hl
    · intro h0
      rw [h0] at hl
      cases hcost : Tables.convFlatten p.2.cost with
      | error e => rw [hcost] at hl; cases hl
      | ok x => rw [hcost] at hl; cases hl
  refine ⟨hc, ?_⟩
  by_cases h0 : s.converters = []
  · simp [h0]
  by_cases hpos : 0 < s.horizon * s.nbScn
  · have := h2 (by
      intro p hp l hl
      refine ⟨"t", (NumVal.tile (arange s.horizon) s.nbScn).map .num, ?_, ?_⟩
      · unfold Tables.destData at hl
        cases h3 : Tables.convFlatten p.2.cost with
        | error e => rw [h3] at hl; cases hl
        | ok x =>
          cases h4 : Tables.convFlatten p.2.max with
          | error e => rw [h3, h4] at hl; cases hl
          | ok y =>
            cases h5 : Dict.getE r.converters p.1 with
            | error e => rw [h3, h4, h5] at hl; cases hl
            | ok o =>
              rw [h3, h4, h5] at hl
              cases hl
              simp [Tables.timeCols, Fill.nums]
      · rw [List.length_map, length_tile, length_arange, Nat.mul_comm]) hpos h0
    rw [Nat.zero_add] at this
    simp only at this
    rw [Nat.mul_comm s.horizon, Nat.mul_comm (s.nbScn * s.horizon)] at this
    exact this
  · have : s.nbScn * s.horizon = 0 := by rw [Nat.mul_comm]; omega
    rw [this]; simp

end Hadar
