import Verif.Proofs.Frame
import Verif.Proofs.LPReady
import Verif.Spec.Analyzer

/-! # The tables of the analyzer -/

namespace Hadar

open Spec

theorem Built.sized {s : Study} (hb : Built s) : StudyAll (NumVal.Sized s.horizon s.nbScn) s := by
  obtain ⟨h, n, cs, hr, rfl⟩ := hb
  have h0 : StudyAll (NumVal.Sized h n) (World.start h n).study := by
    refine ⟨?_, ?_⟩
    · rintro g d nd ⟨net, hg, _⟩
      simp [World.start, Study.init] at hg
    · intro p hp
      simp [World.start, Study.init] at hp
  have hx := World.run_ext (World.worldInv_start h n) cs
  rw [hx.horizon, hx.nbScn]
  exact World.run_all (World.worldInv_start h n) h0 cs hr
    (fun r v hr hv => Factory.create_sized hr hv)

/-! ### Reading arrays by blocks -/

theorem val_sized {v : NumVal} {h n : ℕ} (hv : v.Sized h n) {k t : ℕ} (hk : k < n) (ht : t < h) :
    v.flatten[k * h + t]? = some (val v k t) := by
  obtain ⟨q, hq⟩ := hv.at?_some hk ht
  rw [hv.flatten_get hk ht, hq, val, hv.getitem hk ht hq]

theorem cell_full {s : Study} {a : NdArray} (ha : Full s a) {k t : ℕ} (hk : k < s.nbScn)
    (ht : t < s.horizon) : a.data[k * s.horizon + t]? = some (cell a k t) := by
  have hlt : k * s.horizon + t < a.data.length := by rw [ha.2]; exact idx_lt hk ht
  have e : a.data[k * s.horizon + t]? = some a.data[k * s.horizon + t] := List.getElem?_eq_getElem hlt
  unfold cell NdArray.get2
  rw [ha.1]
  simp [NdArray.axisIndex_nat, hk, ht, e, bind, Except.bind]

theorem Fill.at_nums {l : List ℚ} {m : ℕ} {q : ℚ} (h : l[m]? = some q) : (Fill.nums l).at m = .num q := by
  simp [Fill.nums, Fill.at, List.getD_eq_getElem?_getD, h]

theorem Fill.at_all (c : Cell) (m : ℕ) : (Fill.all c).at m = c := rfl

theorem Fill.fits_all (c : Cell) (m : ℕ) : (Fill.all c).Fits m ↔ True := Iff.rfl

theorem Fill.fits_nums {l : List ℚ} {b : ℕ} : (Fill.nums l).Fits b ↔ l.length = b := by
  simp [Fill.nums, Fill.Fits]

theorem length_arange (n : ℕ) : (arange n).length = n := by simp [arange]

theorem get_arange {n i : ℕ} (h : i < n) : (arange n)[i]? = some (i : ℚ) := by
  unfold arange
  rw [List.getElem?_map, List.getElem?_range h]; rfl

theorem get_tile {h n k t : ℕ} (hk : k < n) (ht : t < h) :
    (NumVal.tile (arange h) n)[k * h + t]? = some (t : ℚ) := by
  have := getElem?_tile (arange h) n k t hk (by rw [length_arange]; exact ht)
  rw [length_arange] at this
  rw [this, get_arange ht]

theorem get_repeat {h n k t : ℕ} (hk : k < n) (ht : t < h) :
    (NumVal.repeatEach (arange n) h)[k * h + t]? = some (k : ℚ) := by
  rw [getElem?_repeatEach (arange n) h k t (by rw [length_arange]; exact hk) ht, get_arange hk]

/-! ### Frames that list elements -/

/-- the frame has the rows `R e k t` for each element, scenario and time, then rows without time -/
structure Frame.Lists {E : Type} (f : Frame) (n h : ℕ) (items : List E)
    (R : E → ℕ → ℕ → Dict String Cell) : Prop where
  size : items.length * (n * h) ≤ f.size
  row : ∀ j e, items[j]? = some e → ∀ k < n, ∀ t < h, f.row (j * (n * h) + (k * h + t)) = R e k t
  rest : ∀ i, items.length * (n * h) ≤ i → i < f.size → f.cell "t" i = .nan

/-- the row made by assignments on a block -/
def rowOf (names : List (String × Bool)) (l : List (String × Fill)) (m : ℕ) : Dict String Cell :=
  names.map fun c => (c.1, ((Dict.get? l c.1).map (·.at m)).getD .nan)

theorem Frame.lists_of_fill {α E : Type} {blk n h : ℕ} (hblk : blk = n * h)
    {data : α → Except PyErr (List (String × Fill))} {cols : List String} (hc : cols.Nodup)
    {es : List α} {items : List E} {R : E → ℕ → ℕ → Dict String Cell} {f : Frame}
    (hF : List.Forall₂ (fun a e => ∃ l, data a = .ok l ∧ l.map Prod.fst = cols ∧
      (∀ p ∈ l, p.2.Fits blk) ∧
      ∀ k < n, ∀ t < h, rowOf (f.names ++ f.created cols) l (k * h + t) = R e k t) es items)
    (hsub : ∀ c ∈ f.names, c.1 ∈ cols)
    (hs : items.length * blk ≤ f.size)
    (hr : f.size = items.length * blk ∨ (¬ f.Has "t" ∧ "t" ∈ cols ∧ items ≠ [])) :
    ∃ f', Frame.fillBlocks blk (· + 1) data es 0 f = .ok f' ∧ f'.size = f.size ∧
      (items ≠ [] → f'.names = f.names ++ f.created cols) ∧
      (items = [] → f'.names = f.names) ∧ f'.Lists n h items R := by
  have hlen := hF.length_eq
  let L : α → List (String × Fill) := fun a => match data a with
    | .ok l => l
    | .error _ => []
  have hd : ∀ a ∈ es, data a = .ok (L a) ∧ (L a).map Prod.fst = cols ∧ ∀ p ∈ L a, p.2.Fits blk := by
    intro a ha
    obtain ⟨i, hi, rfl⟩ := List.getElem_of_mem ha
    obtain ⟨l, h1, h2, h3, _⟩ := hF.get hi (by rw [← hlen]; exact hi)
    simp only [List.get_eq_getElem] at h1
    have : L es[i] = l := by simp only [L, h1]
    rw [this]
    exact ⟨h1, h2, h3⟩
  have hne : es = [] ↔ items = [] := by
    rw [← List.length_eq_zero_iff, ← List.length_eq_zero_iff, hlen]
  obtain ⟨f', e', s', n', c', r'⟩ := Frame.fillBlocks_ok (blk := blk) hc hd (n := 0) (f := f)
    (by rw [Nat.zero_add, hlen]; exact hs)
  have hn1 : items ≠ [] → f'.names = f.names ++ f.created cols := by
    intro h0
    rw [n', if_neg (fun h => h0 (hne.mp h))]
  refine ⟨f', e', s', hn1, ?_, ?_, ?_, ?_⟩
  · intro h0
    rw [n', if_pos (hne.mpr h0)]; simp
  · rw [s', ← hblk]; exact hs
  · intro j e hj k hk t ht
    have hjl : j < items.length := (List.getElem?_eq_some_iff.mp hj).1
    have hjl' : j < es.length := by rw [hlen]; exact hjl
    obtain ⟨l, h1, h2, h3, h4⟩ := hF.get hjl' hjl
    simp only [List.get_eq_getElem] at h1 h4
    have hej : items[j] = e := by
      rw [List.getElem?_eq_getElem hjl] at hj; exact Option.some.inj hj
    rw [hej] at h4
    rw [← h4 k hk t ht]
    have hne' : items ≠ [] := by rintro rfl; simp at hjl
    unfold Frame.row rowOf
    rw [hn1 hne']
    refine List.map_congr_left ?_
    intro c hcm
    have hcc : c.1 ∈ cols := by
      rcases List.mem_append.mp hcm with h0 | h0
      · exact hsub c h0
      · obtain ⟨c', hc', rfl⟩ := List.mem_map.mp h0
        exact List.mem_of_mem_filter hc'
    have hLl : L es[j] = l := by simp only [L, h1]
    obtain ⟨v, hv⟩ : ∃ v, Dict.get? l c.1 = some v := by
      rw [← Option.isSome_iff_exists, ← Option.ne_none_iff_isSome]
      intro h0
      rw [Dict.get?_eq_none_iff] at h0
      unfold Dict.keys at h0
      rw [h2] at h0; exact h0 hcc
    have := c' j es[j] (List.getElem?_eq_getElem hjl') (k * h + t) (by rw [hblk]; exact idx_lt hk ht)
      c.1 v (by rw [hLl]; exact hv)
    rw [Nat.zero_add, hblk] at this
    rw [this, hv]
    rfl
  · intro i hi1 hi2
    rcases hr with h0 | ⟨h0, h1, h2⟩
    · rw [s', h0, hblk] at hi2
      omega
    · rw [r' "t" i (.inr (.inl (by rw [Nat.zero_add, hlen, hblk]; exact hi1)))]
      rw [if_neg]
      push Not
      exact ⟨h0, h1, fun h => h2 (hne.mp h)⟩

theorem Frame.Lists.rows {E : Type} {f : Frame} {n h : ℕ} {items : List E}
    {R : E → ℕ → ℕ → Dict String Cell} (hl : f.Lists n h items R)
    (hs : f.size = items.length * (n * h)) :
    f.rows = items.flatMap fun e => (pairs n h).map fun p => R e p.1 p.2 := by
  unfold Frame.rows
  rw [hs, map_range_blocks]
  have : ∀ e ∈ items.zipIdx, ((List.range (n * h)).map fun m => f.row (e.2 * (n * h) + m)) =
      (pairs n h).map fun p => R e.1 p.1 p.2 := by
    rintro ⟨e, j⟩ he
    rw [range_mul, List.map_map]
    refine List.map_congr_left ?_
    intro p hp
    obtain ⟨h1, h2⟩ := mem_pairs.mp hp
    exact hl.row j e (List.mem_zipIdx_iff_getElem?.mp he) _ h1 _ h2
  rw [List.flatMap_congr this]
  rw [← List.flatMap_map (fun e : E × ℕ => e.1) fun e => (pairs n h).map fun p => R e p.1 p.2,
    List.zipIdx_map_fst]

theorem grid_eq {α : Type} (s : Study) (f : ℕ → ℕ → α) :
    grid s f = (pairs s.nbScn s.horizon).map fun p => f p.1 p.2 := by
  unfold grid pairs
  simp [List.map_flatMap, Function.comp_def]

/-! ### Elements of the study and of the result -/

theorem forall₂_flatMap {α β γ δ : Type} {R : α → β → Prop} {S : γ → δ → Prop} {l : List α}
    {l' : List β} (h : List.Forall₂ R l l') {f : α → List γ} {g : β → List δ}
    (hfg : ∀ a ∈ l, ∀ b ∈ l', R a b → List.Forall₂ S (f a) (g b)) :
    List.Forall₂ S (l.flatMap f) (l'.flatMap g) := by
  induction h with
  | nil => exact .nil
  | @cons a b l l' hab _ ih =>
    rw [List.flatMap_cons, List.flatMap_cons]
    exact List.rel_append (hfg a List.mem_cons_self b List.mem_cons_self hab)
      (ih fun x hx y hy => hfg x (List.mem_cons_of_mem _ hx) y (List.mem_cons_of_mem _ hy))

theorem forall₂_keys {α β : Type} {R : String × α → String × β → Prop} {l : List (String × α)}
    {l' : List (String × β)} (h : List.Forall₂ R l l') (hR : ∀ p q, R p q → p.1 = q.1) :
    l'.map Prod.fst = l.map Prod.fst := by
  induction h with
  | nil => rfl
  | cons hab _ ih => simp [ih, hR _ _ hab]

theorem items_match {α β : Type} {s : Study} {r : Result} (hi : StudyInv s) (hm : Mirrors s r)
    (sel : InputNode → List α) (sel' : OutputNode → List β) (P : α → β → Prop)
    (hP : ∀ n o, MirrorsNode s n o → List.Forall₂ P (sel n) (sel' o)) :
    List.Forall₂ (fun (a : String × String × ℕ × β) (e : String × String × ℕ × α) =>
      a.1 = e.1 ∧ a.2.1 = e.2.1 ∧ a.2.2.1 = e.2.2.1 ∧ P e.2.2.2 a.2.2.2 ∧
      Tables.inItem s sel e.1 e.2.1 e.2.2.1 = .ok e.2.2.2 ∧
      (sel' (outNode r e.1 e.2.1))[e.2.2.1]? = some a.2.2.2 ∧
      ∃ n, HasNode s e.1 e.2.1 n ∧ e.2.2.2 ∈ sel n)
      (Tables.outItems r sel') (elements s sel) := by
  have hkeys : (r.networks.map Prod.fst).Nodup := by
    rw [forall₂_keys hm.networks (fun p q h => h.1)]; exact hi.names.networks
  unfold Tables.outItems elements
  refine forall₂_flatMap hm.networks.flip ?_
  rintro ⟨g', onet⟩ hon ⟨g, net⟩ hn ⟨hg, hnodes⟩
  simp only at hg hnodes
  subst hg
  have hk2 : (onet.nodes.map Prod.fst).Nodup := by
    rw [forall₂_keys hnodes (fun p q h => h.1)]; exact hi.names.nodes _ hn
  refine forall₂_flatMap hnodes.flip ?_
  rintro ⟨d', o⟩ ho ⟨d, n⟩ hd ⟨hdd, hmn⟩
  simp only at hdd hmn
  subst hdd
  have hPl := hP n o hmn
  have e1 : Tables.inItem s sel g d = fun i => match (sel n)[i]? with
      | some a => .ok a
      | none => .error .indexError := by
    funext i
    unfold Tables.inItem
    rw [Dict.getE_of_get? (hi.get?_network hn)]
    simp only [bind, Except.bind]
    rw [Dict.getE_of_get? (hi.get?_node hn hd)]
    rfl
  have e2 : outNode r g d = o := by
    unfold outNode
    rw [Dict.get?_of_mem hkeys hon]
    simp only [Option.bind_some]
    rw [Dict.get?_of_mem hk2 ho]
    rfl
  rw [List.forall₂_map_left_iff, List.forall₂_map_right_iff]
  rw [List.forall₂_iff_get]
  have hlen : (sel' o).length = (sel n).length := hPl.length_eq.symm
  refine ⟨by simpa using hlen, ?_⟩
  intro i h1 h2
  have h1' : i < (sel' o).length := by simpa using h1
  have h2' : i < (sel n).length := by simpa using h2
  have hp := hPl.get h2' h1'
  simp only [List.get_eq_getElem, List.getElem_zipIdx, Nat.zero_add] at hp ⊢
  refine ⟨trivial, trivial, trivial, hp, ?_, ?_, n, ⟨net, hn, hd⟩, List.getElem_mem h2'⟩
  · rw [e1]
    simp only [List.getElem?_eq_getElem h2']
  · rw [e2]
    exact List.getElem?_eq_getElem h1'

theorem count_eq {α : Type} (s : Study) (sel : InputNode → List α) :
    Tables.count s sel = (elements s sel).length := by
  unfold Tables.count elements
  simp [List.length_flatMap]

/-! ### The four tables of elements of nodes -/

theorem consumption_lists {s : Study} {r : Result} (hb : Built s) (hm : Mirrors s r) (junk : Junk) :
    ∃ f, Tables.consumption junk s r = .ok f ∧
      f.size = (elements s (·.consumptions)).length * (s.nbScn * s.horizon) ∧
      f.names = Tables.consumptionNames ∧
      f.Lists s.nbScn s.horizon (elements s (·.consumptions)) (consumptionRow r) := by
  have hi := Built.inv hb
  have hz := (Built.sized hb).1
  have hsize : s.nbScn * s.horizon * Tables.count s (·.consumptions) =
      (elements s (·.consumptions)).length * (s.horizon * s.nbScn) := by
    rw [count_eq, Nat.mul_comm, Nat.mul_comm s.horizon]
  have hF : List.Forall₂ (fun a e => ∃ l, Tables.consumptionData s a = .ok l ∧
      l.map Prod.fst = ["cost", "name", "node", "network", "asked", "given", "t", "scn"] ∧
      (∀ p ∈ l, p.2.Fits (s.horizon * s.nbScn)) ∧
      ∀ k < s.nbScn, ∀ t < s.horizon,
        rowOf Tables.consumptionNames l (k * s.horizon + t) = consumptionRow r e k t)
      (Tables.outItems r (·.consumptions)) (elements s (·.consumptions)) := by
    refine List.Forall₂.imp ?_ (items_match hi hm (·.consumptions) (·.consumptions) _ (fun n o h => h.consumptions))
    rintro ⟨g, d, i, o⟩ ⟨g', d', i', c⟩ ⟨rfl, rfl, rfl, ⟨hname, hfull⟩, hin, hout, n, hn, hc⟩
    simp only at hin hout hname hc hn ⊢
    obtain ⟨hq, hcost⟩ := (hz g d n hn).consumptions c hc
    refine ⟨_, by unfold Tables.consumptionData; simp only; rw [hin]; rfl, rfl, ?_, ?_⟩
    · simp [Tables.timeCols, Fill.fits_nums, Fill.fits_all, hq.flatten_length, hcost.flatten_length, hfull.2,
        length_tile, length_repeatEach, length_arange, Nat.mul_comm]
    · intro k hk t ht
      simp [rowOf, Dict.get?, Tables.consumptionNames, consumptionRow, Tables.timeCols, Fill.at_nums (val_sized hq hk ht),
        Fill.at_nums (val_sized hcost hk ht), Fill.at_nums (cell_full hfull hk ht),
        Fill.at_nums (get_tile hk ht), Fill.at_nums (get_repeat hk ht), cellAt, hout, Fill.at_all, hname]
  have hcr : ∀ sz, (Frame.mk sz Tables.consumptionNames (junk "consumption")).created
      ["cost", "name", "node", "network", "asked", "given", "t", "scn"] = [] := by
    intro sz
    simp [Frame.created, Frame.Has, Tables.consumptionNames]
  obtain ⟨f, h1, h2, h3, h4, h5⟩ := Frame.lists_of_fill (n := s.nbScn) (h := s.horizon)
    (cols := ["cost", "name", "node", "network", "asked", "given", "t", "scn"])
    (R := consumptionRow r) (Nat.mul_comm s.horizon s.nbScn) (by decide)
    (f := ⟨s.nbScn * s.horizon * Tables.count s (·.consumptions), Tables.consumptionNames, junk "consumption"⟩)
    (by rw [hcr, List.append_nil]; exact hF)
    (by simp [Tables.consumptionNames]) (by rw [hsize]) (.inl (by rw [hsize]))
  rw [hcr, List.append_nil] at h3
  refine ⟨f, h1, by rw [h2, hsize, Nat.mul_comm s.horizon], ?_, h5⟩
  by_cases h0 : elements s (·.consumptions) = []
  · exact h4 h0
  · exact h3 h0

theorem production_lists {s : Study} {r : Result} (hb : Built s) (hm : Mirrors s r) (junk : Junk) :
    ∃ f, Tables.production junk s r = .ok f ∧
      f.size = (elements s (·.productions)).length * (s.nbScn * s.horizon) ∧
      f.names = Tables.productionNames ∧
      f.Lists s.nbScn s.horizon (elements s (·.productions)) (productionRow r) := by
  have hi := Built.inv hb
  have hz := (Built.sized hb).1
  have hsize : s.nbScn * s.horizon * Tables.count s (·.productions) =
      (elements s (·.productions)).length * (s.horizon * s.nbScn) := by
    rw [count_eq, Nat.mul_comm, Nat.mul_comm s.horizon]
  have hF : List.Forall₂ (fun a e => ∃ l, Tables.productionData s a = .ok l ∧
      l.map Prod.fst = ["cost", "name", "node", "network", "avail", "used", "t", "scn"] ∧
      (∀ p ∈ l, p.2.Fits (s.horizon * s.nbScn)) ∧
      ∀ k < s.nbScn, ∀ t < s.horizon,
        rowOf Tables.productionNames l (k * s.horizon + t) = productionRow r e k t)
      (Tables.outItems r (·.productions)) (elements s (·.productions)) := by
    refine List.Forall₂.imp ?_ (items_match hi hm (·.productions) (·.productions) _ (fun n o h => h.productions))
    rintro ⟨g, d, i, o⟩ ⟨g', d', i', c⟩ ⟨rfl, rfl, rfl, ⟨hname, hfull⟩, hin, hout, n, hn, hc⟩
    simp only at hin hout hname hc hn ⊢
    obtain ⟨hq, hcost⟩ := (hz g d n hn).productions c hc
    refine ⟨_, by unfold Tables.productionData; simp only; rw [hin]; rfl, rfl, ?_, ?_⟩
    · simp [Tables.timeCols, Fill.fits_nums, Fill.fits_all, hq.flatten_length, hcost.flatten_length, hfull.2,
        length_tile, length_repeatEach, length_arange, Nat.mul_comm]
    · intro k hk t ht
      simp [rowOf, Dict.get?, Tables.productionNames, productionRow, Tables.timeCols, Fill.at_nums (val_sized hq hk ht),
        Fill.at_nums (val_sized hcost hk ht), Fill.at_nums (cell_full hfull hk ht),
        Fill.at_nums (get_tile hk ht), Fill.at_nums (get_repeat hk ht), cellAt, hout, Fill.at_all, hname]
  have hcr : ∀ sz, (Frame.mk sz Tables.productionNames (junk "production")).created
      ["cost", "name", "node", "network", "avail", "used", "t", "scn"] = [] := by
    intro sz
    simp [Frame.created, Frame.Has, Tables.productionNames]
  obtain ⟨f, h1, h2, h3, h4, h5⟩ := Frame.lists_of_fill (n := s.nbScn) (h := s.horizon)
    (cols := ["cost", "name", "node", "network", "avail", "used", "t", "scn"])
    (R := productionRow r) (Nat.mul_comm s.horizon s.nbScn) (by decide)
    (f := ⟨s.nbScn * s.horizon * Tables.count s (·.productions), Tables.productionNames, junk "production"⟩)
    (by rw [hcr, List.append_nil]; exact hF)
    (by simp [Tables.productionNames]) (by rw [hsize]) (.inl (by rw [hsize]))
  rw [hcr, List.append_nil] at h3
  refine ⟨f, h1, by rw [h2, hsize, Nat.mul_comm s.horizon], ?_, h5⟩
  by_cases h0 : elements s (·.productions) = []
  · exact h4 h0
  · exact h3 h0

theorem link_lists {s : Study} {r : Result} (hb : Built s) (hm : Mirrors s r) (junk : Junk) :
    ∃ f, Tables.link junk s r = .ok f ∧
      f.size = (elements s (·.links)).length * (s.nbScn * s.horizon) ∧
      f.names = Tables.linkNames ∧
      f.Lists s.nbScn s.horizon (elements s (·.links)) (linkRow r) := by
  have hi := Built.inv hb
  have hz := (Built.sized hb).1
  have hsize : s.horizon * s.nbScn * Tables.count s (·.links) =
      (elements s (·.links)).length * (s.horizon * s.nbScn) := by
    rw [count_eq, Nat.mul_comm, Nat.mul_comm s.horizon]
  have hF : List.Forall₂ (fun a e => ∃ l, Tables.linkData s a = .ok l ∧
      l.map Prod.fst = ["cost", "dest", "node", "network", "avail", "used", "t", "scn"] ∧
      (∀ p ∈ l, p.2.Fits (s.horizon * s.nbScn)) ∧
      ∀ k < s.nbScn, ∀ t < s.horizon,
        rowOf Tables.linkNames l (k * s.horizon + t) = linkRow r e k t)
      (Tables.outItems r (·.links)) (elements s (·.links)) := by
    refine List.Forall₂.imp ?_ (items_match hi hm (·.links) (·.links) _ (fun n o h => h.links))
    rintro ⟨g, d, i, o⟩ ⟨g', d', i', c⟩ ⟨rfl, rfl, rfl, ⟨hname, hfull⟩, hin, hout, n, hn, hc⟩
    simp only at hin hout hname hc hn ⊢
    obtain ⟨hq, hcost⟩ := (hz g d n hn).links c hc
    refine ⟨_, by unfold Tables.linkData; simp only; rw [hin]; rfl, rfl, ?_, ?_⟩
    · simp [Tables.timeCols, Fill.fits_nums, Fill.fits_all, hq.flatten_length, hcost.flatten_length, hfull.2,
        length_tile, length_repeatEach, length_arange, Nat.mul_comm]
    · intro k hk t ht
      simp [rowOf, Dict.get?, Tables.linkNames, linkRow, Tables.timeCols, Fill.at_nums (val_sized hq hk ht),
        Fill.at_nums (val_sized hcost hk ht), Fill.at_nums (cell_full hfull hk ht),
        Fill.at_nums (get_tile hk ht), Fill.at_nums (get_repeat hk ht), cellAt, hout, Fill.at_all, hname]
  have hcr : ∀ sz, (Frame.mk sz Tables.linkNames (junk "link")).created
      ["cost", "dest", "node", "network", "avail", "used", "t", "scn"] = [] := by
    intro sz
    simp [Frame.created, Frame.Has, Tables.linkNames]
  obtain ⟨f, h1, h2, h3, h4, h5⟩ := Frame.lists_of_fill (n := s.nbScn) (h := s.horizon)
    (cols := ["cost", "dest", "node", "network", "avail", "used", "t", "scn"])
    (R := linkRow r) (Nat.mul_comm s.horizon s.nbScn) (by decide)
    (f := ⟨s.horizon * s.nbScn * Tables.count s (·.links), Tables.linkNames, junk "link"⟩)
    (by rw [hcr, List.append_nil]; exact hF)
    (by simp [Tables.linkNames]) (by rw [hsize]) (.inl (by rw [hsize]))
  rw [hcr, List.append_nil] at h3
  refine ⟨f, h1, by rw [h2, hsize, Nat.mul_comm s.horizon], ?_, h5⟩
  by_cases h0 : elements s (·.links) = []
  · exact h4 h0
  · exact h3 h0

/-- what is assigned for each storage -/
theorem storage_match {s : Study} {r : Result} (hb : Built s) (hm : Mirrors s r) :
    List.Forall₂ (fun a e => ∃ l, Tables.storageData s a = .ok l ∧
      l.map Prod.fst = ["max_capacity", "capacity", "max_flow_in", "flow_in", "max_flow_out", "flow_out",
      "cost", "init_capacity", "eff", "network", "name", "node", "t", "scn"] ∧
      (∀ p ∈ l, p.2.Fits (s.horizon * s.nbScn)) ∧
      ∀ k < s.nbScn, ∀ t < s.horizon,
        rowOf Tables.storageNames l (k * s.horizon + t) = storageRow r e k t)
      (Tables.outItems r (·.storages)) (elements s (·.storages)) := by
  have hi := Built.inv hb
  have hz := (Built.sized hb).1
  refine List.Forall₂.imp ?_ (items_match hi hm (·.storages) (·.storages) _ (fun n o h => h.storages))
  rintro ⟨g, d, i, o⟩ ⟨g', d', i', c⟩ ⟨rfl, rfl, rfl, ⟨hname, hf1, hf2, hf3⟩, hin, hout, n, hn, hc⟩
  simp only at hin hout hname hc hn ⊢
  obtain ⟨hz1, hz2, hz3, hz4, hz5⟩ := (hz g d n hn).storages c hc
  refine ⟨_, by unfold Tables.storageData; simp only; rw [hin]; rfl, rfl, ?_, ?_⟩
  · simp [Tables.timeCols, Fill.fits_nums, Fill.fits_all, hz1.flatten_length, hz2.flatten_length, hz3.flatten_length,
      hz4.flatten_length, hz5.flatten_length, hf1.2, hf2.2, hf3.2,
      length_tile, length_repeatEach, length_arange, Nat.mul_comm]
  · intro k hk t ht
    simp [rowOf, Dict.get?, Tables.storageNames, storageRow, Tables.timeCols, Fill.at_nums (val_sized hz1 hk ht),
      Fill.at_nums (val_sized hz2 hk ht), Fill.at_nums (val_sized hz3 hk ht),
      Fill.at_nums (val_sized hz4 hk ht), Fill.at_nums (val_sized hz5 hk ht),
      Fill.at_nums (cell_full hf1 hk ht), Fill.at_nums (cell_full hf2 hk ht),
      Fill.at_nums (cell_full hf3 hk ht),
      Fill.at_nums (get_tile hk ht), Fill.at_nums (get_repeat hk ht), cellAt, hout, Fill.at_all, hname]

theorem storage_lists {s : Study} {r : Result} (hb : Built s) (hm : Mirrors s r) (junk : Junk)
    (h1s : storageCount s ≤ 1) :
    ∃ f, Tables.storage junk s r = .ok f ∧
      f.size = (elements s (·.storages)).length * (s.nbScn * s.horizon) ∧
      f.names = Tables.storageNames ∧
      f.Lists s.nbScn s.horizon (elements s (·.storages)) (storageRow r) := by
  have hsize : s.horizon * s.nbScn * Tables.count s (·.storages) =
      (elements s (·.storages)).length * (s.horizon * s.nbScn) := by
    rw [count_eq, Nat.mul_comm, Nat.mul_comm s.horizon]
  have hF := storage_match hb hm
  have hcr : ∀ sz, (Frame.mk sz Tables.storageNames (junk "storage")).created
      ["max_capacity", "capacity", "max_flow_in", "flow_in", "max_flow_out", "flow_out",
      "cost", "init_capacity", "eff", "network", "name", "node", "t", "scn"] = [] := by
    intro sz
    simp [Frame.created, Frame.Has, Tables.storageNames]
  obtain ⟨f, h1, h2, h3, h4, h5⟩ := Frame.lists_of_fill (n := s.nbScn) (h := s.horizon)
    (cols := ["max_capacity", "capacity", "max_flow_in", "flow_in", "max_flow_out", "flow_out",
      "cost", "init_capacity", "eff", "network", "name", "node", "t", "scn"])
    (R := storageRow r) (Nat.mul_comm s.horizon s.nbScn) (by decide)
    (f := ⟨s.horizon * s.nbScn * Tables.count s (·.storages), Tables.storageNames, junk "storage"⟩)
    (by rw [hcr, List.append_nil]; exact hF)
    (by simp [Tables.storageNames]) (by rw [hsize]) (.inl (by rw [hsize]))
  rw [hcr, List.append_nil] at h3
  refine ⟨f, by
    unfold Tables.storage
    rw [Frame.fillBlocks_next (by rw [hF.length_eq]; exact h1s) id (· + 1)]
    exact h1, by rw [h2, hsize, Nat.mul_comm s.horizon], ?_, h5⟩
  by_cases h0 : elements s (·.storages) = []
  · exact h4 h0
  · exact h3 h0

end Hadar
