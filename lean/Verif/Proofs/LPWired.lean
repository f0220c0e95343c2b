import Verif.Spec.Accept
import Verif.Proofs.LPAccept

/-!
# Ends of links and converters in a study that was accepted, however it was made
-/

namespace Hadar

open Spec

theorem loopM_inv {α σ β : Type} {f : α → σ → Except PyErr (β × σ)} (P : σ → Prop) {l : List α} {b : σ}
    {r : List β × σ} (h : loopM f l b = .ok r) (h0 : P b)
    (hs : ∀ x ∈ l, ∀ b y, P b → f x b = .ok y → P y.2) :
    P r.2 ∧ ∀ x ∈ l, ∃ b y, P b ∧ f x b = .ok y := by
  induction l generalizing b r with
  | nil =>
    simp only [loopM, Except.ok.injEq] at h
    subst h
    exact ⟨h0, by simp⟩
  | cons a l ih =>
    rw [loopM] at h
    simp only [bind, Except.bind] at h
    cases ha : f a b with
    | error e => rw [ha] at h; cases h
    | ok y =>
      rw [ha] at h
      dsimp only at h
      cases hl : loopM f l y.2 with
      | error e => rw [hl] at h; cases h
      | ok ys =>
        rw [hl] at h
        simp only [pure, Except.pure, Except.ok.injEq] at h
        subst h
        obtain ⟨h1, h2⟩ := ih hl (hs a List.mem_cons_self b y h0 ha) (fun x hx => hs x (List.mem_cons_of_mem _ hx))
        refine ⟨h1, ?_⟩
        intro x hx
        rcases List.mem_cons.mp hx with rfl | hx
        · exact ⟨b, y, h0, ha⟩
        · exact h2 x hx

/-- what a step makes true and later steps keep is true at the end -/
theorem loopM_reach {α σ β : Type} {f : α → σ → Except PyErr (β × σ)} (P : σ → Prop) {l : List α} {b : σ}
    {r : List β × σ} (h : loopM f l b = .ok r) {x : α} (hx : x ∈ l) (hmake : ∀ b y, f x b = .ok y → P y.2)
    (hkeep : ∀ x ∈ l, ∀ b y, P b → f x b = .ok y → P y.2) : P r.2 := by
  induction l generalizing b r with
  | nil => simp at hx
  | cons a l ih =>
    rw [loopM] at h
    simp only [bind, Except.bind] at h
    cases ha : f a b with
    | error e => rw [ha] at h; cases h
    | ok y =>
      rw [ha] at h
      dsimp only at h
      cases hl : loopM f l y.2 with
      | error e => rw [hl] at h; cases h
      | ok ys =>
        rw [hl] at h
        simp only [pure, Except.pure, Except.ok.injEq] at h
        subst h
        have hk := fun x hx => hkeep x (List.mem_cons_of_mem a hx)
        rcases List.mem_cons.mp hx with rfl | hx
        · exact (loopM_inv P hl (hmake b y ha) hk).1
        · have := ih hl hx hk
          exact this

variable {s : Study}

/-- the constraints of adequacy are those of nodes -/
def KeysNodes (s : Study) (b : Build) : Prop := ∀ t g d, (t, g, d) ∈ b.keys → ∃ n, HasNode s g d n

theorem buildNode_keys {scn t : ℕ} {g d : String} {b : Build} {y : (String × LPNode Var) × Build}
    (h : buildNode s scn t g d b = .ok y) : KeysNodes s b → KeysNodes s y.2 := by
  intro hb
  unfold buildNode at h
  simp only [bind, Except.bind] at h
  split at h
  · cases h
  rename_i n hn
  split at h
  · cases h
  cases h
  intro t' g' d' hk
  rcases List.mem_append.mp hk with hk | hk
  · exact hb t' g' d' hk
  · obtain ⟨rfl, rfl, rfl⟩ : t' = t ∧ g' = g ∧ d' = d := by simpa using hk
    unfold getNodeVar at hn
    simp only [bind, Except.bind] at hn
    split at hn
    · cases hn
    rename_i net hnet
    split at hn
    · cases hn
    rename_i nd hnd
    exact ⟨nd, net, Dict.mem_of_get? (Dict.getE_ok hnet), Dict.mem_of_get? (Dict.getE_ok hnd)⟩

theorem buildNet_keys {scn t : ℕ} {p : String × InputNetwork} {b : Build}
    {y : (String × Dict String (LPNode Var)) × Build} (h : buildNet s scn t p b = .ok y) :
    KeysNodes s b → KeysNodes s y.2 := by
  intro hb
  unfold buildNet at h
  simp only [bind, Except.bind] at h
  split at h
  · cases h
  rename_i r hr
  cases h
  exact (loopM_inv (KeysNodes s) hr hb fun q _ b y hb hy => buildNode_keys hy hb).1

theorem buildConv_keys {scn t : ℕ} {name : String} {b : Build} {y : (String × LPConverter Var) × Build}
    (h : buildConv s scn t name b = .ok y) : y.2.keys = b.keys ∧ y.2.imports = b.imports := by
  unfold buildConv at h
  simp only [bind, Except.bind] at h
  split at h
  · cases h
  split at h
  · cases h
  split at h
  · cases h
  cases h
  exact ⟨rfl, rfl⟩

theorem buildTime_keys {scn t : ℕ} {b : Build} {y : LPTimeStep Var × Build} (h : buildTime s scn t b = .ok y) :
    KeysNodes s b → KeysNodes s y.2 ∧ ∀ p ∈ s.converters, ∃ b' z, KeysNodes s b' ∧ buildConv s scn t p.1 b' = .ok z := by
  intro hb
  unfold buildTime at h
  simp only [bind, Except.bind] at h
  split at h
  · cases h
  rename_i nets hnets
  split at h
  · cases h
  rename_i convs hconvs
  cases h
  have h1 := (loopM_inv (KeysNodes s) hnets hb fun q _ b y hb hy => buildNet_keys hy hb).1
  exact loopM_inv (KeysNodes s) hconvs h1 fun q _ b y hb hy => by
    unfold KeysNodes
    rw [(buildConv_keys hy).1]
    exact hb

theorem setCoef_ok {s : Study} {b : Build} (hb : KeysNodes s b) {t : ℕ} {g d : String} {v : Var} {c : ℚ} {a : Cmd}
    (h : AdequacyBuilder.setCoef b.keys (t, g, d) v c = .ok a) : ∃ n, HasNode s g d n := by
  unfold AdequacyBuilder.setCoef at h
  split at h
  · rename_i hk
    exact hb t g d hk
  · cases h

theorem getConvVar_keys {scn t : ℕ} {p : String × Converter} (hu : (s.converters.map Prod.fst).Nodup)
    (hp : p ∈ s.converters) {c : LPConverter Var × List Cmd} (h : getConvVar s p.1 t scn = .ok c) :
    c.1.destNetwork = p.2.destNetwork ∧ c.1.destNode = p.2.destNode ∧
      c.1.varFlowSrc.map Prod.fst = p.2.srcRatios.map Prod.fst := by
  unfold getConvVar at h
  rw [Dict.getE_of_get? (Dict.get?_of_mem hu hp)] at h
  simp only [bind, Except.bind] at h
  split at h
  · cases h
  rename_i ratios hratios
  split at h
  · cases h
  split at h
  · cases h
  split at h
  · cases h
  cases h
  refine ⟨rfl, rfl, ?_⟩
  simp only [List.map_map, Function.comp_def]
  have : ∀ (l : List (List String × NumVal)) (r : List (List String × ℚ)),
      l.mapM (fun p => (p.2.getitem scn t).bind fun r => Except.ok (p.1, r)) = .ok r → r.map Prod.fst = l.map Prod.fst := by
    intro l
    induction l with
    | nil => intro r hr; cases hr; rfl
    | cons a l ih =>
      intro r hr
      rw [List.mapM_cons] at hr
      simp only [bind, Except.bind] at hr
      split at hr
      · cases hr
      rename_i x hx
      split at hr
      · cases hr
      rename_i xs hxs
      cases hr
      rw [List.map_cons, List.map_cons, ih xs hxs]
      congr 1
      split at hx
      · cases hx
      · cases hx; rfl
  exact this _ _ hratios

theorem buildConv_wired {scn t : ℕ} {p : String × Converter} (hu : (s.converters.map Prod.fst).Nodup)
    (hp : p ∈ s.converters) {b : Build} (hb : KeysNodes s b) {z : (String × LPConverter Var) × Build}
    (h : buildConv s scn t p.1 b = .ok z) : (∃ n, HasNode s p.2.destNetwork p.2.destNode n) ∧
      ∀ q ∈ p.2.srcRatios, ∃ g d n, q.1 = [g, d] ∧ HasNode s g d n := by
  unfold buildConv at h
  simp only [bind, Except.bind] at h
  split at h
  · cases h
  rename_i c hc
  split at h
  · cases h
  rename_i adeq hadeq
  obtain ⟨e1, e2, e3⟩ := getConvVar_keys hu hp hc
  unfold AdequacyBuilder.addConverter at hadeq
  simp only [bind, Except.bind] at hadeq
  split at hadeq
  · cases hadeq
  rename_i dest hdest
  split at hadeq
  · cases hadeq
  rename_i srcs hsrcs
  rw [e1, e2] at hdest
  refine ⟨setCoef_ok hb hdest, ?_⟩
  intro q hq
  have hm : q.1 ∈ c.1.varFlowSrc.map Prod.fst := by rw [e3]; exact List.mem_map.mpr ⟨q, hq, rfl⟩
  obtain ⟨x, hx, e⟩ := List.mem_map.mp hm
  obtain ⟨y, hy⟩ := mapM_ok_each hsrcs x hx
  unfold AdequacyBuilder.srcCoef at hy
  split at hy
  · rename_i g d hgd
    obtain ⟨n, hn⟩ := setCoef_ok hb hy
    exact ⟨g, d, n, by rw [← e, hgd], hn⟩
  · cases hy

/-! ### Links -/

theorem set_keys_kept {K V : Type} [DecidableEq K] {d : Dict K V} {k : K} {v : V} {x : K} (h : x ∈ d.map Prod.fst) :
    x ∈ (d.set k v).map Prod.fst := (set_keys_mem d k v x).mpr (.inl h)

theorem foldl_set_keys {K V : Type} [DecidableEq K] (l : List (K × V)) (d : Dict K V) {x : K}
    (h : x ∈ d.map Prod.fst ∨ x ∈ l.map Prod.fst) :
    x ∈ (l.foldl (fun d p => Dict.set d p.1 p.2) d).map Prod.fst := by
  induction l generalizing d with
  | nil => simpa using h
  | cons a l ih =>
    rw [List.foldl_cons]
    apply ih
    rw [set_keys_mem]
    simp only [List.map_cons, List.mem_cons] at h
    tauto

theorem buildNode_imports {scn t : ℕ} {g d : String} {b : Build} {y : (String × LPNode Var) × Build} {key : SubKey}
    (h : buildNode s scn t g d b = .ok y) (hk : key ∈ b.imports.map Prod.fst) : key ∈ y.2.imports.map Prod.fst := by
  unfold buildNode at h
  simp only [bind, Except.bind] at h
  split at h
  · cases h
  split at h
  · cases h
  cases h
  exact foldl_set_keys _ _ (.inl hk)

theorem links_mapM {net node : String} {scn t : ℕ} {l : List (Link × ℕ)} {r : List (LPLink Var)}
    (h : l.mapM (fun p => LPLink.ofInput net node scn t p.1 p.2) = .ok r) :
    ∀ p ∈ l, ∃ x ∈ r, x.src = node ∧ x.dest = p.1.dest := by
  induction l generalizing r with
  | nil => simp
  | cons a l ih =>
    rw [List.mapM_cons] at h
    simp only [bind, Except.bind] at h
    split at h
    · cases h
    rename_i x hx
    split at h
    · cases h
    rename_i xs hxs
    cases h
    intro p hp
    rcases List.mem_cons.mp hp with rfl | hp
    · refine ⟨x, List.mem_cons_self, ?_⟩
      unfold LPLink.ofInput at hx
      simp only [bind, Except.bind] at hx
      split at hx
      · cases hx
      split at hx
      · cases hx
      cases hx
      exact ⟨rfl, rfl⟩
    · obtain ⟨y, hy, e⟩ := ih hxs p hp
      exact ⟨y, List.mem_cons_of_mem _ hy, e⟩

theorem buildNode_links {scn t : ℕ} {g d : String} {net : InputNetwork} {n : InputNode}
    (hg : s.networks.get? g = some net) (hd : net.nodes.get? d = some n) {l : Link} (hl : l ∈ n.links)
    {b : Build} {y : (String × LPNode Var) × Build} (h : buildNode s scn t g d b = .ok y) :
    (t, g, d, l.dest) ∈ y.2.imports.map Prod.fst := by
  unfold buildNode at h
  simp only [bind, Except.bind] at h
  split at h
  · cases h
  rename_i v hv
  split at h
  · cases h
  cases h
  apply foldl_set_keys _ _ (.inr ?_)
  unfold getNodeVar at hv
  rw [Dict.getE_of_get? hg] at hv
  simp only [bind, Except.bind] at hv
  rw [Dict.getE_of_get? hd] at hv
  dsimp only at hv
  unfold LPNode.ofInput at hv
  simp only [bind, Except.bind] at hv
  split at hv
  · cases hv
  split at hv
  · cases hv
  split at hv
  · cases hv
  split at hv
  · cases hv
  rename_i links hlinks
  cases hv
  obtain ⟨i, hi, rfl⟩ := List.getElem_of_mem hl
  obtain ⟨x, hx, e1, e2⟩ := links_mapM hlinks (n.links[i], i)
    (List.mem_zipIdx_iff_getElem?.mpr (List.getElem?_eq_getElem hi))
  simp only [AdequacyBuilder.importsOf, List.map_map, List.mem_map, Function.comp_def]
  exact ⟨x, hx, by rw [e1, e2]⟩

theorem buildNet_imports {scn t : ℕ} {p : String × InputNetwork} {b : Build}
    {y : (String × Dict String (LPNode Var)) × Build} {key : SubKey} (h : buildNet s scn t p b = .ok y)
    (hk : key ∈ b.imports.map Prod.fst) : key ∈ y.2.imports.map Prod.fst := by
  unfold buildNet at h
  simp only [bind, Except.bind] at h
  split at h
  · cases h
  rename_i r hr
  cases h
  exact (loopM_inv (fun b => key ∈ b.imports.map Prod.fst) hr hk fun q _ b y hb hy => buildNode_imports hy hb).1

theorem buildNet_links {scn t : ℕ} {g d : String} {net : InputNetwork} {n : InputNode} (hu : Dictionaries s)
    (hg : (g, net) ∈ s.networks) (hd : (d, n) ∈ net.nodes) {l : Link} (hl : l ∈ n.links) {b : Build}
    {y : (String × Dict String (LPNode Var)) × Build} (h : buildNet s scn t (g, net) b = .ok y) :
    (t, g, d, l.dest) ∈ y.2.imports.map Prod.fst := by
  unfold buildNet at h
  simp only [bind, Except.bind] at h
  split at h
  · cases h
  rename_i r hr
  cases h
  exact loopM_reach (fun b => (t, g, d, l.dest) ∈ b.imports.map Prod.fst) hr hd
    (fun b y hy => buildNode_links (Dict.get?_of_mem hu.networks hg) (Dict.get?_of_mem (hu.nodes _ hg) hd) hl hy)
    (fun q _ b y hb hy => buildNode_imports hy hb)

theorem buildTime_imports {scn t : ℕ} {b : Build} {y : LPTimeStep Var × Build} {key : SubKey}
    (h : buildTime s scn t b = .ok y) (hk : key ∈ b.imports.map Prod.fst) : key ∈ y.2.imports.map Prod.fst := by
  unfold buildTime at h
  simp only [bind, Except.bind] at h
  split at h
  · cases h
  rename_i nets hnets
  split at h
  · cases h
  rename_i convs hconvs
  cases h
  have h1 := (loopM_inv (fun b => key ∈ b.imports.map Prod.fst) hnets hk fun q _ b y hb hy => buildNet_imports hy hb).1
  exact (loopM_inv (fun b => key ∈ b.imports.map Prod.fst) hconvs h1 fun q _ b y hb hy => by
    rw [(buildConv_keys hy).2]; exact hb).1

theorem buildTime_links {scn t : ℕ} {g d : String} {net : InputNetwork} {n : InputNode} (hu : Dictionaries s)
    (hg : (g, net) ∈ s.networks) (hd : (d, n) ∈ net.nodes) {l : Link} (hl : l ∈ n.links) {b : Build}
    {y : LPTimeStep Var × Build} (h : buildTime s scn t b = .ok y) :
    (t, g, d, l.dest) ∈ y.2.imports.map Prod.fst := by
  unfold buildTime at h
  simp only [bind, Except.bind] at h
  split at h
  · cases h
  rename_i nets hnets
  split at h
  · cases h
  rename_i convs hconvs
  cases h
  have h1 := loopM_reach (fun b => (t, g, d, l.dest) ∈ b.imports.map Prod.fst) hnets hg
    (fun b y hy => buildNet_links hu hg hd hl hy) (fun q _ b y hb hy => buildNet_imports hy hb)
  exact (loopM_inv (fun b => (t, g, d, l.dest) ∈ b.imports.map Prod.fst) hconvs h1 fun q _ b y hb hy => by
    rw [(buildConv_keys hy).2]; exact hb).1

theorem wired_of_build (hu : Dictionaries s) {k : ℕ} {r : List (LPTimeStep Var) × List Cmd} (h : buildAll s k = .ok r)
    (hh : 0 < s.horizon) : Wired s := by
  unfold buildAll at h
  simp only [bind, Except.bind] at h
  split at h
  · cases h
  rename_i v hv
  split at h
  · cases h
  rename_i imports himports
  have h0 : 0 ∈ List.range s.horizon := List.mem_range.mpr hh
  obtain ⟨hk, hsteps⟩ := loopM_inv (KeysNodes s) hv (fun t g d hk => by cases hk)
    fun t _ b y hb hy => (buildTime_keys hy hb).1
  obtain ⟨b, y, hb, hy⟩ := hsteps 0 h0
  have hconv := (buildTime_keys hy hb).2
  refine ⟨?_, ?_, ?_⟩
  · rintro g d n ⟨net, hg, hd⟩ l hl
    have hm := loopM_reach (fun b => ((0 : ℕ), g, d, l.dest) ∈ b.imports.map Prod.fst) hv h0
      (fun b y hy => buildTime_links hu hg hd hl hy) (fun t _ b y hb hy => buildTime_imports hy hb)
    obtain ⟨x, hx, e⟩ := List.mem_map.mp hm
    obtain ⟨a, ha⟩ := mapM_ok_each himports x hx
    rw [e] at ha
    exact setCoef_ok hk ha
  · intro p hp
    obtain ⟨b', z, hb', hz⟩ := hconv p hp
    exact (buildConv_wired hu.converters hp hb' hz).1
  · intro p hp
    obtain ⟨b', z, hb', hz⟩ := hconv p hp
    exact (buildConv_wired hu.converters hp hb' hz).2

end Hadar
