import Verif.Spec.Declare
import Verif.Props.Study
import Mathlib.Data.List.Induction

/-! # Lemmas for C134 -/

set_option linter.unusedSimpArgs false

namespace Hadar

open Spec World

/-! ### The checks hold for whatever was built -/

theorem someNonneg_iff {v : NumVal} : SomeNonneg v ↔ v.lt 0 = false := by
  unfold SomeNonneg given NumVal.lt
  cases v.kind <;> simp

theorem someAtMost_iff {v : NumVal} : (∃ q ∈ given v, q ≤ 1) ↔ v.gt 1 = false := by
  unfold given NumVal.gt
  cases v.kind <;> simp

theorem fits_ofArray {f : Factory} {a : NdArray} {v : NumVal} (h : f.ofArray a = .ok v) : Fits f.horizon f.nbScn v := by
  unfold Factory.ofArray at h
  split_ifs at h with h1 h2 h3 <;> cases h
  · exact ⟨rfl, rfl, h1⟩
  · exact ⟨rfl, rfl, h2⟩
  · refine ⟨rfl, rfl, h3, ?_⟩
    intro h4
    rw [h4] at h3
    exact h2 h3

theorem fits_ofJson {f : Factory} {j : Json} {v : NumVal} (h : f.ofJson j = .ok v) : Fits f.horizon f.nbScn v := by
  unfold Factory.ofJson at h
  split at h
  · cases h; exact ⟨rfl, rfl, trivial⟩
  · simp only [bind, Except.bind] at h
    split at h
    · cases h
    · exact fits_ofArray h
  · cases h

theorem fits_create {f : Factory} {r : Raw} {v : NumVal} (hr : ∀ w, r ≠ .val w) (h : f.create r = .ok v) :
    Fits f.horizon f.nbScn v := by
  unfold Factory.create at h
  split at h
  · exact absurd rfl (hr _)
  · cases h; exact ⟨rfl, rfl, trivial⟩
  · exact fits_ofArray h
  · split at h
    · exact fits_ofJson h
    · cases h
  · exact fits_ofJson h
  · cases h

/-- what is kept by all study methods is kept by all calls; converters apart -/
theorem World.after_keeps' {P : Study → Prop} {w : World}
    (hnet : ∀ s g, P s → P (Study.addNetwork g s).2) (hnode : ∀ s g d, P s → P (Study.addNode g d s).2)
    (hlink : ∀ s g a b c q, P s → P (Study.addLink g a b c q s).2)
    (hcons : ∀ s g d m c q, P s → P (Study.addConsumption g d m c q s).2)
    (hprod : ∀ s g d m c q, P s → P (Study.addProduction g d m c q s).2)
    (hstor : ∀ s g d a, P s → P (Study.addStorage g d a s).2)
    (c : Call) (hw : P w.study) (hcc : Props.IsConverterCall c → P (w.after c).study) :
    P (w.after c).study := by
  have hlink' : ∀ r src dest cost q, P (link r src dest cost q w).2.study := by
    intro r src dest cost q
    rcases link_run r src dest cost q w with ⟨e, h, _⟩ | ⟨g, d, _, h⟩ <;> rw [h]
    · exact hw
    · exact hlink _ _ _ _ _ _ hw
  have hnet' : ∀ g, P (network g w).2.study := by
    intro g; rw [network_run]; exact hnet _ g hw
  have hnode' : ∀ r name, P (node r name w).2.study := by
    intro r name
    rcases node_run r name w with ⟨_, h⟩ | ⟨d, _, h⟩ | ⟨g, d, _, h⟩ <;> rw [h]
    · exact hw
    · exact hw
    · exact hnode _ _ _ hw
  have hwith : ∀ r (f : String → String → PyM Study Unit), (∀ g d, P (f g d w.study).2) →
      P ((do
        let net ← selNetwork r
        let nd ← selNode r
        onStudy (f net nd)
        pure (.node r) : PyM World Handle) w).2.study := by
    intro r f hf
    rcases withSel_run r f w with ⟨e, h, _⟩ | ⟨g, d, _, h⟩ <;> rw [h]
    · exact hw
    · exact hf _ _
  unfold after
  cases c with
  | studyNetwork name => exact hnet' name
  | studyAddNetwork name =>
    have : (step (.studyAddNetwork name) w).2.study = (Study.addNetwork name w.study).2 := by
      simp [step, onStudy, Study.addNetwork_run]
    rw [this]; exact hnet _ _ hw
  | studyAddNode g d =>
    have : (step (.studyAddNode g d) w).2.study = (Study.addNode g d w.study).2 := by
      simp only [step, onStudy, PyM.bind_run]
      cases Study.addNode g d w.study with
      | mk r s => cases r <;> simp
    rw [this]; exact hnode _ _ _ hw
  | studyAddLink g src dest cost q =>
    have : (step (.studyAddLink g src dest cost q) w).2.study =
        (Study.addLink g src dest cost q w.study).2 := by
      simp only [step, onStudy, PyM.bind_run]
      cases Study.addLink g src dest cost q w.study with
      | mk r s => cases r <;> simp
    rw [this]; exact hlink _ _ _ _ _ _ hw
  | netNode r name => exact hnode' r name
  | netLink r src dest cost q => exact hlink' r src dest cost q
  | netNetwork r name => exact hnet' name
  | netConverter r name net nd mx cost => exact hcc trivial
  | nodeConsumption r name cost q => exact hwith r (fun g d => Study.addConsumption g d name cost q) fun g d => hcons _ _ _ _ _ _ hw
  | nodeProduction r name cost q => exact hwith r (fun g d => Study.addProduction g d name cost q) fun g d => hprod _ _ _ _ _ _ hw
  | nodeStorage r a => exact hwith r (fun g d => Study.addStorage g d a) fun g d => hstor _ _ _ _ hw
  | nodeNode r name => exact hnode' r name
  | nodeLink r src dest cost q => exact hlink' r src dest cost q
  | nodeNetwork r name => exact hnet' name
  | nodeConverter r name net nd mx cost => exact hcc trivial
  | nodeToConverter r name ratio => exact hcc trivial

/-- what is kept by all study methods is kept by all calls -/
theorem World.after_keeps {P : Study → Prop} {w : World}
    (hnet : ∀ s g, P s → P (Study.addNetwork g s).2) (hnode : ∀ s g d, P s → P (Study.addNode g d s).2)
    (hlink : ∀ s g a b c q, P s → P (Study.addLink g a b c q s).2)
    (hcons : ∀ s g d m c q, P s → P (Study.addConsumption g d m c q s).2)
    (hprod : ∀ s g d m c q, P s → P (Study.addProduction g d m c q s).2)
    (hstor : ∀ s g d a, P s → P (Study.addStorage g d a s).2)
    (hconv : ∀ s m, P s → P (Study.addConverter m s).2)
    (hsrc : ∀ s m g d r, P s → P (Study.addConverterSrc m g d r s).2)
    (hdest : ∀ s m g d c x, P s → P (Study.setConverterDest m g d c x s).2) (c : Call) (hw : P w.study) :
    P (w.after c).study := by
  refine World.after_keeps' hnet hnode hlink hcons hprod hstor c hw fun hc => ?_
  have hconv' : ∀ name net nd mx cost, P (converter name net nd mx cost w).2.study := by
    intro name net nd mx cost
    have := hdest _ name net nd cost mx (hconv _ name hw)
    rcases converter_run name net nd mx cost w with ⟨e, _, h⟩ | ⟨_, h⟩ <;> rw [h] <;> exact this
  unfold after
  cases c with
  | netConverter r name net nd mx cost => exact hconv' _ _ _ _ _
  | nodeConverter r name net nd mx cost => exact hconv' _ _ _ _ _
  | nodeToConverter r name ratio =>
    rcases toConverter_run r name ratio w with ⟨e, h⟩ | ⟨g, d, _, h⟩ <;> rw [h]
    · exact hconv _ _ hw
    · exact hsrc _ _ _ _ _ (hconv _ _ hw)
  | _ => exact absurd hc (by simp [Props.IsConverterCall])

/-- the checks of the builder -/
structure Checked (s : Study) : Prop where
  nodes : ∀ p ∈ s.networks, ∀ a ∈ p.2.nodes, NodeChecked a.2
  fields : ∀ p ∈ s.converters, p.2.cost = .int0 → p.2.max = .int0

theorem Checked.updNode {s : Study} (h : Checked s) {g d : String} {f : InputNode → InputNode}
    (hf : ∀ n, NodeChecked n → NodeChecked (f n)) : Checked (s.updNode g d f) := by
  refine ⟨?_, h.fields⟩
  intro p hp a ha
  rcases Dict.mem_modify hp with hp | ⟨net, hn, rfl⟩
  · exact h.nodes p hp a ha
  · rcases Dict.mem_modify ha with ha | ⟨m, hm, rfl⟩
    · exact h.nodes _ hn a ha
    · exact hf _ (h.nodes _ hn _ hm)

theorem Checked.updConv {s : Study} (h : Checked s) {m : String} {f : Converter → Converter}
    (hf : ∀ c, (c.cost = .int0 → c.max = .int0) → (f c).cost = .int0 → (f c).max = .int0) : Checked (s.updConv m f) := by
  refine ⟨h.nodes, ?_⟩
  intro p hp
  rcases Dict.mem_modify hp with hp | ⟨c, hc, rfl⟩
  · exact h.fields p hp
  · exact hf _ (h.fields _ hc)

theorem mem_snoc {α : Type} {l : List α} {x y : α} (h : x ∈ l ++ [y]) : x ∈ l ∨ x = y := by simpa using h

theorem checked_after {w : World} (c : Call) (hw : Checked w.study) : Checked (w.after c).study := by
  refine World.after_keeps (P := Checked) ?_ ?_ ?_ ?_ ?_ ?_ ?_ ?_ ?_ c hw
  · intro s g h
    rw [Study.addNetwork_run]
    split
    · exact h
    · refine ⟨?_, h.fields⟩
      intro p hp
      rcases mem_snoc hp with hp | rfl
      · exact h.nodes p hp
      · simp
  · intro s g d h
    rcases Study.addNode_run g d s with ⟨_, he⟩ | ⟨net, _, he⟩ <;> rw [he]
    · exact h
    · dsimp only
      split
      · exact h
      · refine ⟨?_, h.fields⟩
        intro p hp a ha
        rcases Dict.mem_modify hp with hp | ⟨net, hn, rfl⟩
        · exact h.nodes p hp a ha
        · rcases Dict.mem_set ha with ha | rfl
          · exact h.nodes _ hn a ha
          · exact ⟨by simp, by simp, by simp, by simp⟩
  · intro s g a b c q h
    rcases Study.addLink_run g a b c q s with ⟨e, he⟩ | ⟨_, _, qv, cv, _, _, _, _, _, hq, _, he⟩ <;> rw [he]
    · exact h
    · refine h.updNode fun n hn => ⟨hn.1, hn.2, hn.3, fun x hx => ?_⟩
      rcases mem_snoc hx with hx | rfl
      · exact hn.4 x hx
      · exact someNonneg_iff.mpr hq
  · intro s g d m c q h
    rcases Study.addConsumption_run g d m c q s with ⟨e, he⟩ | ⟨_, _, qv, cv, _, _, _, _, hq, _, he⟩ <;> rw [he]
    · exact h
    · refine h.updNode fun n hn => ⟨fun x hx => ?_, hn.2, hn.3, hn.4⟩
      rcases mem_snoc hx with hx | rfl
      · exact hn.1 x hx
      · exact someNonneg_iff.mpr hq
  · intro s g d m c q h
    rcases Study.addProduction_run g d m c q s with ⟨e, he⟩ | ⟨_, _, qv, cv, _, _, _, _, hq, _, he⟩ <;> rw [he]
    · exact h
    · refine h.updNode fun n hn => ⟨hn.1, fun x hx => ?_, hn.3, hn.4⟩
      rcases mem_snoc hx with hx | rfl
      · exact hn.2 x hx
      · exact someNonneg_iff.mpr hq
  · intro s g d a h
    rcases Study.addStorage_run g d a s with ⟨e, he⟩ |
      ⟨_, _, cap, fi, fo, cv, ev, _, _, _, _, _, h6, h7, _, h9, h10, _, h12, h13, _, he⟩ <;> rw [he]
    · exact h
    · refine h.updNode fun n hn => ⟨hn.1, hn.2, fun x hx => ?_, hn.4⟩
      rcases mem_snoc hx with hx | rfl
      · exact hn.3 x hx
      · exact ⟨someNonneg_iff.mpr h9, someNonneg_iff.mpr h6, someNonneg_iff.mpr h7, h10, someNonneg_iff.mpr h12,
          someAtMost_iff.mpr h13⟩
  · intro s m h
    rw [Study.addConverter_run]
    split
    · exact h
    · refine ⟨h.nodes, ?_⟩
      intro p hp
      rcases mem_snoc hp with hp | rfl
      · exact h.fields p hp
      · simp
  · intro s m g d r h
    rcases Study.addConverterSrc_run m g d r s with ⟨e, he⟩ | ⟨c, rv, _, _, _, he⟩ <;> rw [he]
    · exact h
    · exact h.updConv fun c hc => hc
  · intro s m g d c x h
    rcases Study.setConverterDest_run m g d c x s with ⟨e, he⟩ | ⟨c, net, _, _, _, _, hd⟩
    · rw [he]; exact h
    · have h0 : Checked (s.withDest m g d) := by
        unfold Study.withDest
        refine Checked.updConv (Checked.updConv h ?_) ?_ <;> exact fun c hc => hc
      rcases hd with ⟨e, _, he⟩ | ⟨cv, e, _, _, he⟩ | ⟨cv, mv, _, _, he⟩ <;> rw [he]
      · exact h0
      · refine Checked.updConv h0 ?_
        intro c hc e
        cases e
      · unfold Study.withMax Study.withCost
        rw [updConv_updConv]
        refine Checked.updConv h0 ?_
        intro c hc e
        cases e

theorem checked_run {w : World} (cs : List Call) (hw : Checked w.study) : Checked (w.run cs).study := by
  induction cs generalizing w with
  | nil => exact hw
  | cons c cs ih => exact ih (checked_after c hw)

/-- whatever was built is well-formed -/
theorem wellFormed_of_built {s : Study} (hb : Built s) : WellFormed s := by
  obtain ⟨h, n, cs, hc, rfl⟩ := hb
  have hi := reachable_inv h n cs
  have hx := run_ext (worldInv_start h n) cs
  have hk : Checked ((start h n).run cs).study :=
    checked_run cs ⟨by simp [start, Study.init], by simp [start, Study.init]⟩
  refine ⟨hx.version, hi.study.names, hi.study.links, hi.study.convs, ?_, ?_, hk.fields⟩
  · rw [hx.horizon, hx.nbScn]
    refine run_all (worldInv_start h n) ⟨?_, ?_⟩ cs hc fun r v hr hv => fits_create hr hv
    · rintro g d n ⟨net, hm, _⟩; simp [start, Study.init] at hm
    · intro p hp; simp [start, Study.init] at hp
  · rintro g d n ⟨net, h1, h2⟩
    exact hk.nodes _ h1 _ h2

/-! ### Every well-formed study can be declared -/

/-- something to give to the builder to get the series -/
def rawOf (v : NumVal) : Raw :=
  match v.kind with
  | .scalar q => .num q
  | .matrix a | .row a | .column a => .array a

theorem rawOf_raw (v v' : NumVal) : rawOf v ≠ .val v' := by
  unfold rawOf
  cases v.kind <;> simp

theorem create_rawOf {h n : ℕ} {v : NumVal} (hv : Fits h n v) : (Factory.mk h n).create (rawOf v) = .ok v := by
  obtain ⟨k, h', n'⟩ := v
  obtain ⟨rfl, rfl, hk⟩ := hv
  cases k with
  | scalar q => rfl
  | row a =>
    simp only at hk
    simp [rawOf, Factory.create, Factory.ofArray, hk]
  | column a =>
    simp only at hk
    simp [rawOf, Factory.create, Factory.ofArray, hk]
  | matrix a =>
    simp only at hk
    simp [rawOf, Factory.create, Factory.ofArray, hk.1, hk.2]

/-- a program that gives the study; when `b`, all its calls are accepted -/
def Reach (b : Prop) (h n : ℕ) (s : Study) : Prop :=
  ∃ cs, (∀ c ∈ cs, RawCall c) ∧ (b → AllAccepted (start h n) cs) ∧ ((start h n).run cs).study = s

theorem accepted_append {w : World} {cs cs' : List Call} (h : AllAccepted w cs) (h' : AllAccepted (w.run cs) cs') :
    AllAccepted w (cs ++ cs') := by
  induction cs generalizing w with
  | nil => exact h'
  | cons c cs ih => exact ⟨h.1, ih h.2 h'⟩

theorem run_append (w : World) (cs cs' : List Call) : w.run (cs ++ cs') = (w.run cs).run cs' := by
  simp [World.run, List.foldl_append]

theorem Reach.extend {b : Prop} {h n : ℕ} {s s' : Study} (hr : Reach b h n s)
    (hw : ∀ w : World, w.study = s → ∃ cs, (∀ c ∈ cs, RawCall c) ∧ (b → AllAccepted w cs) ∧ (w.run cs).study = s') :
    Reach b h n s' := by
  obtain ⟨cs, h1, h2, h3⟩ := hr
  obtain ⟨cs', h4, h5, h6⟩ := hw _ h3
  refine ⟨cs ++ cs', ?_, fun hb => accepted_append (h2 hb) (h5 hb), by rw [run_append]; exact h6⟩
  intro c hc
  rcases List.mem_append.mp hc with hc | hc
  · exact h1 c hc
  · exact h4 c hc

/-- one element after the other -/
theorem grow {α K : Type} (P : List α → Prop) (ok : α → Prop) (name : α → K)
    (hstep : ∀ l c, name c ∉ l.map name → ok c → P l → P (l ++ [c])) (l : List α) (hn : (l.map name).Nodup)
    (hok : ∀ c ∈ l, ok c) (h0 : P []) : P l := by
  induction l using List.reverseRecOn with
  | nil => exact h0
  | append_singleton l c ih =>
    rw [List.map_append, List.nodup_append] at hn
    refine hstep l c ?_ (hok c (by simp)) (ih hn.1 fun x hx => hok x (by simp [hx]))
    intro hc
    exact hn.2.2 _ hc (name c) (by simp) rfl

theorem Dict.get?_mid {K V : Type} [DecidableEq K] {pre post : Dict K V} {k : K} {v : V} (h : k ∉ pre.keys) :
    Dict.get? (pre ++ (k, v) :: post) k = some v := by
  induction pre with
  | nil => simp [Dict.get?]
  | cons p pre ih =>
    simp only [Dict.keys, List.map_cons, List.mem_cons, not_or] at h
    simp only [List.cons_append, Dict.get?_cons]
    rw [if_neg (Ne.symm h.1)]
    exact ih h.2

theorem Dict.modify_mid {K V : Type} [DecidableEq K] {pre post : Dict K V} {k : K} {v : V} {f : V → V} (h : k ∉ pre.keys) :
    Dict.modify (pre ++ (k, v) :: post) k f = pre ++ (k, f v) :: post := by
  induction pre with
  | nil => simp [Dict.modify]
  | cons p pre ih =>
    simp only [Dict.keys, List.map_cons, List.mem_cons, not_or] at h
    simp only [List.cons_append, Dict.modify]
    rw [if_neg (Ne.symm h.1), ih h.2]

/-- the node of the study is selected -/
theorem select {w : World} {g d : String} {net : InputNetwork} (hg : w.study.networks.get? g = some net) (hd : d ∈ net.nodes.keys) :
    AllAccepted w [.studyNetwork g, .netNode w.heap.length d] ∧
      (w.run [.studyNetwork g, .netNode w.heap.length d]).study = w.study ∧
      (w.run [.studyNetwork g, .netNode w.heap.length d]).heap[w.heap.length]? = some ⟨some g, some d⟩ := by
  have hk : g ∈ w.study.networks.keys := List.mem_map.mpr ⟨_, Dict.mem_of_get? hg, rfl⟩
  have e1 : step (.studyNetwork g) w = (.ok (.net w.heap.length), ⟨w.study, w.heap ++ [⟨some g, none⟩]⟩) := by
    show network g w = _
    rw [network_run, Study.addNetwork_run, if_pos hk]
  have e2 : step (.netNode w.heap.length d) ⟨w.study, w.heap ++ [⟨some g, none⟩]⟩ =
      (.ok (.node w.heap.length), ⟨w.study, setNode (w.heap ++ [⟨some g, none⟩]) w.heap.length d⟩) := by
    show node w.heap.length d _ = _
    rcases node_run w.heap.length d ⟨w.study, w.heap ++ [⟨some g, none⟩]⟩ with ⟨h, _⟩ | ⟨_, h, _⟩ | ⟨g', d', h, he⟩
    · simp at h
    · simp at h
    · simp at h
      obtain ⟨rfl, rfl⟩ := h
      rw [he]
      rcases Study.addNode_run g d w.study with ⟨h, _⟩ | ⟨net', h', he'⟩
      · rw [hg] at h; cases h
      · rw [hg] at h'; cases h'
        rw [he', if_pos hd]
        rfl
  have a1 : w.after (.studyNetwork g) = ⟨w.study, w.heap ++ [⟨some g, none⟩]⟩ := by unfold after; rw [e1]
  have a2 : World.after ⟨w.study, w.heap ++ [⟨some g, none⟩]⟩ (.netNode w.heap.length d) =
      ⟨w.study, setNode (w.heap ++ [⟨some g, none⟩]) w.heap.length d⟩ := by unfold after; rw [e2]
  refine ⟨⟨⟨_, by rw [e1]⟩, ⟨_, by rw [a1, e2]⟩, trivial⟩, ?_, ?_⟩
  · simp only [World.run, List.foldl_cons, List.foldl_nil, a1, a2]
  · simp only [World.run, List.foldl_cons, List.foldl_nil, a1, a2, setNode, List.getElem?_modify_eq]
    simp

/-- a call on the selected node -/
theorem Reach.onNode {b : Prop} {h n : ℕ} {s s' : Study} (hr : Reach b h n s) {g d : String} {net : InputNetwork}
    (hg : s.networks.get? g = some net) (hd : d ∈ net.nodes.keys) (call : ℕ → Call) (hraw : ∀ r, RawCall (call r))
    (hc : ∀ (w : World) (r : ℕ), w.study = s → w.heap[r]? = some ⟨some g, some d⟩ →
      (b → ∃ hd, (step (call r) w).1 = .ok hd) ∧ (step (call r) w).2.study = s') : Reach b h n s' := by
  refine hr.extend fun w hw => ?_
  subst hw
  obtain ⟨h1, h2, h3⟩ := select hg hd
  obtain ⟨h4, h5⟩ := hc _ _ h2 h3
  refine ⟨[.studyNetwork g, .netNode w.heap.length d] ++ [call w.heap.length], ?_, ?_, ?_⟩
  · intro c hc
    simp at hc
    rcases hc with rfl | rfl | rfl
    · trivial
    · trivial
    · exact hraw _
  · exact fun hb => accepted_append h1 ⟨h4 hb, trivial⟩
  · rw [run_append]
    exact h5

section
variable {b : Prop} {h n : ℕ} {pre post : Dict String InputNetwork} {npre npost : Dict String InputNode} {g d : String}
  {convs : Dict String Converter}

/-- a study under construction -/
def draft (h n : ℕ) (nets : Dict String InputNetwork) (convs : Dict String Converter) : Study := ⟨"0.5.0", nets, convs, h, n⟩

/-- a study where one node is looked at -/
def around (h n : ℕ) (pre post : Dict String InputNetwork) (npre npost : Dict String InputNode) (g d : String)
    (convs : Dict String Converter) (m : InputNode) : Study :=
  draft h n (pre ++ (g, ⟨npre ++ (d, m) :: npost⟩) :: post) convs

theorem around_net {m : InputNode} (hg : g ∉ pre.keys) :
    (around h n pre post npre npost g d convs m).networks.get? g = some ⟨npre ++ (d, m) :: npost⟩ := Dict.get?_mid hg

theorem around_upd {m : InputNode} (hg : g ∉ pre.keys) (hd : d ∉ npre.keys) (f : InputNode → InputNode) :
    (around h n pre post npre npost g d convs m).updNode g d f = around h n pre post npre npost g d convs (f m) := by
  unfold Study.updNode Study.updNet around draft
  simp only [Dict.modify_mid hg, Dict.modify_mid hd]

theorem mid_keys {m : InputNode} : d ∈ (npre ++ (d, m) :: npost : Dict String InputNode).keys := by simp [Dict.keys]

theorem mapped {α β : Type} {r : Except PyErr α} {f : α → β} {a : α} (h : r = .ok a) : ∃ x, r.map f = .ok x := by
  subst h; exact ⟨_, rfl⟩

/-- a method called on the selected node -/
theorem Reach.method {s s' : Study} (hr : Reach b h n s) {net : InputNetwork} (hg : s.networks.get? g = some net)
    (hd : d ∈ net.nodes.keys) (call : ℕ → Call) (hraw : ∀ r, RawCall (call r)) (f : String → String → PyM Study Unit)
    (hstep : ∀ r w, step (call r) w = (do
        let net ← selNetwork r
        let nd ← selNode r
        onStudy (f net nd)
        pure (.node r) : PyM World Handle) w)
    (hok : f g d s = (.ok (), s')) : Reach b h n s' := by
  refine hr.onNode hg hd call hraw ?_
  intro w r hw hh
  rw [hstep]
  rcases withSel_run r f w with ⟨e, _, hno⟩ | ⟨g', d', hh', he⟩
  · exact absurd hh (hno g d)
  · rw [hh] at hh'; cases hh'
    rw [hw, hok] at he
    rw [he]
    exact ⟨fun _ => ⟨_, rfl⟩, rfl⟩

theorem ok_of {s s' : Study} {m : PyM Study Unit} (h1 : (m s).1 = .ok ()) (h2 : (m s).2 = s') : m s = (.ok (), s') := Prod.ext h1 h2

theorem add_consumption (hg : g ∉ pre.keys) (hd : d ∉ npre.keys) {m : InputNode} {c : Consumption}
    (hn : c.name ∉ m.consumptions.map (·.name)) (hq : Fits h n c.quantity) (hc : Fits h n c.cost) (hk : SomeNonneg c.quantity)
    (hr : Reach b h n (around h n pre post npre npost g d convs m)) :
    Reach b h n (around h n pre post npre npost g d convs { m with consumptions := m.consumptions ++ [c] }) := by
  refine hr.method (around_net hg) mid_keys (fun r => .nodeConsumption r c.name (rawOf c.cost) (rawOf c.quantity))
    (fun r => ⟨rawOf_raw _, rawOf_raw _⟩) (fun g d => Study.addConsumption g d c.name (rawOf c.cost) (rawOf c.quantity))
    (fun _ _ => rfl) ?_
  have hok := (Study.addConsumption_ok (cost := rawOf c.cost) (around_net (h := h) (n := n) (npre := npre) (npost := npost) (d := d)
    (convs := convs) (post := post) (m := m) hg) (Dict.get?_mid hd) hn (create_rawOf hq)).2 (someNonneg_iff.mp hk) (create_rawOf hc)
  refine ok_of hok ?_
  rcases Study.addConsumption_run g d c.name (rawOf c.cost) (rawOf c.quantity)
    (around h n pre post npre npost g d convs m) with ⟨e, he⟩ | ⟨_, _, qv, cv, _, _, _, h4, _, h6, he⟩
  · rw [he] at hok; cases hok
  · have e1 : (around h n pre post npre npost g d convs m).factory = ⟨h, n⟩ := rfl
    rw [e1, create_rawOf hq] at h4
    rw [e1, create_rawOf hc] at h6
    cases h4; cases h6
    rw [he]
    exact around_upd hg hd _

theorem add_production (hg : g ∉ pre.keys) (hd : d ∉ npre.keys) {m : InputNode} {c : Production}
    (hn : c.name ∉ m.productions.map (·.name)) (hq : Fits h n c.quantity) (hc : Fits h n c.cost) (hk : SomeNonneg c.quantity)
    (hr : Reach b h n (around h n pre post npre npost g d convs m)) :
    Reach b h n (around h n pre post npre npost g d convs { m with productions := m.productions ++ [c] }) := by
  refine hr.method (around_net hg) mid_keys (fun r => .nodeProduction r c.name (rawOf c.cost) (rawOf c.quantity))
    (fun r => ⟨rawOf_raw _, rawOf_raw _⟩) (fun g d => Study.addProduction g d c.name (rawOf c.cost) (rawOf c.quantity))
    (fun _ _ => rfl) ?_
  have hok := (Study.addProduction_ok (cost := rawOf c.cost) (around_net (h := h) (n := n) (npre := npre) (npost := npost) (d := d)
    (convs := convs) (post := post) (m := m) hg) (Dict.get?_mid hd) hn (create_rawOf hq)).2 (someNonneg_iff.mp hk) (create_rawOf hc)
  refine ok_of hok ?_
  rcases Study.addProduction_run g d c.name (rawOf c.cost) (rawOf c.quantity)
    (around h n pre post npre npost g d convs m) with ⟨e, he⟩ | ⟨_, _, qv, cv, _, _, _, h4, _, h6, he⟩
  · rw [he] at hok; cases hok
  · have e1 : (around h n pre post npre npost g d convs m).factory = ⟨h, n⟩ := rfl
    rw [e1, create_rawOf hq] at h4
    rw [e1, create_rawOf hc] at h6
    cases h4; cases h6
    rw [he]
    exact around_upd hg hd _

theorem add_storage (hg : g ∉ pre.keys) (hd : d ∉ npre.keys) {m : InputNode} {c : Storage}
    (hn : c.name ∉ m.storages.map (·.name))
    (hf : Fits h n c.capacity ∧ Fits h n c.flowIn ∧ Fits h n c.flowOut ∧ Fits h n c.cost ∧ Fits h n c.eff)
    (hk : SomeNonneg c.capacity ∧ SomeNonneg c.flowIn ∧ SomeNonneg c.flowOut ∧ 0 ≤ c.initCapacity ∧
      SomeNonneg c.eff ∧ ∃ q ∈ given c.eff, q ≤ 1)
    (hr : Reach b h n (around h n pre post npre npost g d convs m)) :
    Reach b h n (around h n pre post npre npost g d convs { m with storages := m.storages ++ [c] }) := by
  have args : ∃ a : Study.StorageArgs, a = ⟨c.name, rawOf c.capacity, rawOf c.flowIn, rawOf c.flowOut, rawOf c.cost,
    c.initCapacity, rawOf c.eff⟩ := ⟨_, rfl⟩
  obtain ⟨a, ha⟩ := args
  refine hr.method (around_net hg) mid_keys (fun r => .nodeStorage r a) (fun r => ?_) (fun g d => Study.addStorage g d a)
    (fun _ _ => rfl) ?_
  · subst ha; exact ⟨rawOf_raw _, rawOf_raw _, rawOf_raw _, rawOf_raw _, rawOf_raw _⟩
  obtain ⟨f1, f2, f3, f4, f5⟩ := hf
  obtain ⟨k1, k2, k3, k4, k5, k6⟩ := hk
  have hok := (Study.addStorage_ok (a := a) (cv := c.cost) (around_net (h := h) (n := n) (npre := npre) (npost := npost) (d := d)
    (convs := convs) (post := post) (m := m) hg) (Dict.get?_mid hd) (by subst ha; exact hn) (fi := c.flowIn) (fo := c.flowOut)
    (cap := c.capacity) (ev := c.eff) (by subst ha; exact create_rawOf f2) (by subst ha; exact create_rawOf f3)
    (by subst ha; exact create_rawOf f1) (by subst ha; exact create_rawOf f5)).2 (someNonneg_iff.mp k2) (someNonneg_iff.mp k3)
    (someNonneg_iff.mp k1) (by subst ha; exact k4) (someNonneg_iff.mp k5) (someAtMost_iff.mp k6)
    (by subst ha; exact create_rawOf f4)
  refine ok_of hok ?_
  rcases Study.addStorage_run g d a (around h n pre post npre npost g d convs m) with ⟨e, he⟩ |
    ⟨_, _, cap, fi, fo, cv, ev, _, _, _, h4, h5, _, _, h8, _, _, h11, _, _, h14, he⟩
  · rw [he] at hok; cases hok
  · have e1 : (around h n pre post npre npost g d convs m).factory = ⟨h, n⟩ := rfl
    subst ha
    rw [e1, create_rawOf f2] at h4
    rw [e1, create_rawOf f3] at h5
    rw [e1, create_rawOf f1] at h8
    rw [e1, create_rawOf f5] at h11
    rw [e1, create_rawOf f4] at h14
    cases h4; cases h5; cases h8; cases h11; cases h14
    rw [he]
    exact around_upd hg hd _

theorem add_link (hg : g ∉ pre.keys) (hd : d ∉ npre.keys) {m : InputNode} {c : Link}
    (hn : c.dest ∉ m.links.map (·.dest)) (hq : Fits h n c.quantity) (hc : Fits h n c.cost) (hk : SomeNonneg c.quantity)
    (hdest : c.dest ∈ (npre ++ (d, m) :: npost : Dict String InputNode).keys)
    (hr : Reach b h n (around h n pre post npre npost g d convs m)) :
    Reach b h n (around h n pre post npre npost g d convs { m with links := m.links ++ [c] }) := by
  have hok := (Study.addLink_ok (cost := rawOf c.cost) (around_net (h := h) (n := n) (npre := npre) (npost := npost) (d := d)
    (convs := convs) (post := post) (m := m) hg) (Dict.get?_mid hd) hdest hn (create_rawOf hq)).2 (someNonneg_iff.mp hk)
    (create_rawOf hc)
  have hrun : Study.addLink g d c.dest (rawOf c.cost) (rawOf c.quantity) (around h n pre post npre npost g d convs m) =
      (.ok (), around h n pre post npre npost g d convs { m with links := m.links ++ [c] }) := by
    refine ok_of hok ?_
    rcases Study.addLink_run g d c.dest (rawOf c.cost) (rawOf c.quantity)
      (around h n pre post npre npost g d convs m) with ⟨e, he⟩ | ⟨_, _, qv, cv, _, _, _, _, h5, _, h7, he⟩
    · rw [he] at hok; cases hok
    · have e1 : (around h n pre post npre npost g d convs m).factory = ⟨h, n⟩ := rfl
      rw [e1, create_rawOf hq] at h5
      rw [e1, create_rawOf hc] at h7
      cases h5; cases h7
      rw [he]
      exact around_upd hg hd _
  refine hr.extend fun w hw => ⟨[.studyAddLink g d c.dest (rawOf c.cost) (rawOf c.quantity)], ?_, ?_, ?_⟩
  · intro x hx
    rw [List.mem_singleton] at hx
    subst hx
    exact ⟨rawOf_raw _, rawOf_raw _⟩
  · intro _
    refine ⟨⟨.study, ?_⟩, trivial⟩
    simp only [step, onStudy, PyM.bind_run, hw, hrun, PyM.pure_run]
  · simp only [World.run, List.foldl_cons, List.foldl_nil, after, step, onStudy, PyM.bind_run, hw, hrun, PyM.pure_run]

theorem add_network {nets : Dict String InputNetwork} (hg : g ∉ nets.keys) (hr : Reach b h n (draft h n nets convs)) :
    Reach b h n (draft h n (nets ++ [(g, ⟨[]⟩)]) convs) := by
  have hrun : Study.addNetwork g (draft h n nets convs) = (.ok (), draft h n (nets ++ [(g, ⟨[]⟩)]) convs) := by
    rw [Study.addNetwork_run, if_neg (show g ∉ (draft h n nets convs).networks.keys from hg)]
    rfl
  refine hr.extend fun w hw => ⟨[.studyAddNetwork g], ?_, ?_, ?_⟩
  · intro x hx
    rw [List.mem_singleton] at hx
    subst hx
    trivial
  · intro _
    refine ⟨⟨.study, ?_⟩, trivial⟩
    simp only [step, onStudy, PyM.bind_run, hw, hrun, PyM.pure_run]
  · simp only [World.run, List.foldl_cons, List.foldl_nil, after, step, onStudy, PyM.bind_run, hw, hrun, PyM.pure_run]

/-- a node without elements -/
def bare : InputNode := ⟨[], [], [], []⟩

theorem add_node {nodes : Dict String InputNode} (hg : g ∉ pre.keys) (hd : d ∉ nodes.keys)
    (hr : Reach b h n (draft h n (pre ++ [(g, ⟨nodes⟩)]) convs)) :
    Reach b h n (draft h n (pre ++ [(g, ⟨nodes ++ [(d, bare)]⟩)]) convs) := by
  have hrun : Study.addNode g d (draft h n (pre ++ [(g, ⟨nodes⟩)]) convs) =
      (.ok (), draft h n (pre ++ [(g, ⟨nodes ++ [(d, bare)]⟩)]) convs) := by
    have hget : (draft h n (pre ++ [(g, ⟨nodes⟩)]) convs).networks.get? g = some ⟨nodes⟩ := Dict.get?_mid hg
    rcases Study.addNode_run g d (draft h n (pre ++ [(g, ⟨nodes⟩)]) convs) with ⟨h1, _⟩ | ⟨net, h1, he⟩
    · rw [hget] at h1; cases h1
    · rw [hget] at h1; cases h1
      rw [he, if_neg hd]
      unfold Study.updNet draft
      simp only [Dict.modify_mid hg, Dict.set_of_not_mem hd, bare]
  refine hr.extend fun w hw => ⟨[.studyAddNode g d], ?_, ?_, ?_⟩
  · intro x hx
    rw [List.mem_singleton] at hx
    subst hx
    trivial
  · intro _
    refine ⟨⟨.study, ?_⟩, trivial⟩
    simp only [step, onStudy, PyM.bind_run, hw, hrun, PyM.pure_run]
  · simp only [World.run, List.foldl_cons, List.foldl_nil, after, step, onStudy, PyM.bind_run, hw, hrun, PyM.pure_run]

/-- all elements of a node -/
theorem fill_node (hg : g ∉ pre.keys) (hd : d ∉ npre.keys) {m : InputNode} (hall : NodeAll (Fits h n) m) (hk : NodeChecked m)
    (n1 : (m.consumptions.map (·.name)).Nodup) (n2 : (m.productions.map (·.name)).Nodup)
    (n3 : (m.storages.map (·.name)).Nodup) (n4 : (m.links.map (·.dest)).Nodup)
    (hdest : ∀ l ∈ m.links, l.dest ∈ (npre ++ (d, m) :: npost : Dict String InputNode).keys)
    (hr : Reach b h n (around h n pre post npre npost g d convs bare)) :
    Reach b h n (around h n pre post npre npost g d convs m) := by
  have s1 : Reach b h n (around h n pre post npre npost g d convs ⟨m.consumptions, [], [], []⟩) :=
    grow (fun l => Reach b h n (around h n pre post npre npost g d convs ⟨l, [], [], []⟩)) (fun c => c ∈ m.consumptions)
      (·.name) (fun l c hn hc hp => add_consumption hg hd (m := ⟨l, [], [], []⟩) hn (hall.1 c hc).1 (hall.1 c hc).2 (hk.1 c hc) hp)
      _ n1 (fun c hc => hc) hr
  have s2 : Reach b h n (around h n pre post npre npost g d convs ⟨m.consumptions, m.productions, [], []⟩) :=
    grow (fun l => Reach b h n (around h n pre post npre npost g d convs ⟨m.consumptions, l, [], []⟩)) (fun c => c ∈ m.productions)
      (·.name) (fun l c hn hc hp => add_production hg hd (m := ⟨m.consumptions, l, [], []⟩) hn (hall.2 c hc).1 (hall.2 c hc).2
        (hk.2 c hc) hp) _ n2 (fun c hc => hc) s1
  have s3 : Reach b h n (around h n pre post npre npost g d convs ⟨m.consumptions, m.productions, m.storages, []⟩) :=
    grow (fun l => Reach b h n (around h n pre post npre npost g d convs ⟨m.consumptions, m.productions, l, []⟩))
      (fun c => c ∈ m.storages) (·.name) (fun l c hn hc hp => add_storage hg hd (m := ⟨m.consumptions, m.productions, l, []⟩) hn
        (hall.3 c hc) (hk.3 c hc) hp) _ n3 (fun c hc => hc) s2
  exact grow (fun l => Reach b h n (around h n pre post npre npost g d convs ⟨m.consumptions, m.productions, m.storages, l⟩))
      (fun c => c ∈ m.links) (·.dest) (fun l c hn hc hp => add_link hg hd (m := ⟨m.consumptions, m.productions, m.storages, l⟩) hn
        (hall.4 c hc).1 (hall.4 c hc).2 (hk.4 c hc) (by simpa [Dict.keys] using hdest c hc) hp) _ n4 (fun c hc => hc) s3

/-- nodes without their elements -/
def bareNodes (l : Dict String InputNode) : Dict String InputNode := l.map fun p => (p.1, bare)

/-- networks without the elements of their nodes -/
def bareNets (l : Dict String InputNetwork) : Dict String InputNetwork := l.map fun p => (p.1, ⟨bareNodes p.2.nodes⟩)

theorem bareNodes_keys (l : Dict String InputNode) : (bareNodes l).keys = l.keys := by simp [bareNodes, Dict.keys, Function.comp_def]

theorem bareNets_keys (l : Dict String InputNetwork) : (bareNets l).keys = l.keys := by simp [bareNets, Dict.keys, Function.comp_def]

theorem all_bare {nets : Dict String InputNetwork} (h1 : (nets.map Prod.fst).Nodup)
    (h2 : ∀ p ∈ nets, (p.2.nodes.map Prod.fst).Nodup) : Reach b h n (draft h n (bareNets nets) []) := by
  refine grow (fun l => Reach b h n (draft h n (bareNets l) [])) (fun p => (p.2.nodes.map Prod.fst).Nodup) Prod.fst ?_ nets h1 h2 ?_
  · rintro l ⟨g, ⟨nodes⟩⟩ hn hok hr
    have hg : g ∉ (bareNets l).keys := by rw [bareNets_keys]; exact hn
    have := grow (fun k => Reach b h n (draft h n (bareNets l ++ [(g, ⟨bareNodes k⟩)]) [])) (fun _ => True) Prod.fst ?_ nodes hok
      (fun _ _ => trivial) (add_network hg hr)
    · simpa [bareNets] using this
    · rintro k ⟨d, m⟩ hd _ hr
      have hd' : d ∉ (bareNodes k).keys := by rw [bareNodes_keys]; exact hd
      simpa [bareNodes] using add_node hg hd' hr
  · exact ⟨[], by simp, fun _ => trivial, rfl⟩

/-- what is asked of the node of a network -/
structure NodeFine (h n : ℕ) (keys : List String) (m : InputNode) : Prop where
  all : NodeAll (Fits h n) m
  checked : NodeChecked m
  n1 : (m.consumptions.map (·.name)).Nodup
  n2 : (m.productions.map (·.name)).Nodup
  n3 : (m.storages.map (·.name)).Nodup
  n4 : (m.links.map (·.dest)).Nodup
  dest : ∀ l ∈ m.links, l.dest ∈ keys

theorem fill_network (hg : g ∉ pre.keys) (keys : List String) (nodes : Dict String InputNode) :
    ∀ npre : Dict String InputNode, npre.keys ++ nodes.keys = keys → keys.Nodup → (∀ a ∈ nodes, NodeFine h n keys a.2) →
    Reach b h n (draft h n (pre ++ (g, ⟨npre ++ bareNodes nodes⟩) :: post) convs) →
    Reach b h n (draft h n (pre ++ (g, ⟨npre ++ nodes⟩) :: post) convs) := by
  induction nodes with
  | nil => intro npre _ _ _ hr; exact hr
  | cons a nodes ih =>
    obtain ⟨d, m⟩ := a
    intro npre hkeys hnd hok hr
    have hf := hok (d, m) (by simp)
    have hd : d ∉ npre.keys := by
      intro hd
      rw [← hkeys, List.nodup_append] at hnd
      exact hnd.2.2 d hd d (by simp [Dict.keys]) rfl
    have step1 : Reach b h n (around h n pre post npre (bareNodes nodes) g d convs m) := by
      refine fill_node hg hd hf.all hf.checked hf.n1 hf.n2 hf.n3 hf.n4 ?_ hr
      intro l hl
      have := hf.dest l hl
      rw [← hkeys] at this
      have e : (npre ++ (d, m) :: bareNodes nodes : Dict String InputNode).keys = npre.keys ++ (d :: (bareNodes nodes).keys) := by
        simp [Dict.keys]
      rw [e, bareNodes_keys]
      exact this
    have := ih (npre ++ [(d, m)]) (by rw [← hkeys]; simp [Dict.keys]) hnd (fun a ha => hok a (by simp [ha]))
      (by simpa [around] using step1)
    simpa using this

theorem fill_networks (nets : Dict String InputNetwork) :
    ∀ pre : Dict String InputNetwork, (pre.keys ++ nets.keys).Nodup →
    (∀ p ∈ nets, (p.2.nodes.keys).Nodup ∧ ∀ a ∈ p.2.nodes, NodeFine h n p.2.nodes.keys a.2) →
    Reach b h n (draft h n (pre ++ bareNets nets) convs) → Reach b h n (draft h n (pre ++ nets) convs) := by
  induction nets with
  | nil => intro pre _ _ hr; exact hr
  | cons p nets ih =>
    obtain ⟨g, ⟨nodes⟩⟩ := p
    intro pre hnd hok hr
    have hg : g ∉ pre.keys := by
      intro hg
      rw [List.nodup_append] at hnd
      exact hnd.2.2 g hg g (by simp [Dict.keys]) rfl
    obtain ⟨h1, h2⟩ := hok (g, ⟨nodes⟩) (by simp)
    have step1 := fill_network (post := bareNets nets) hg nodes.keys nodes [] (by simp [Dict.keys]) h1 h2 hr
    have := ih (pre ++ [(g, ⟨nodes⟩)]) (by simpa [Dict.keys] using hnd) (fun p hp => hok p (by simp [hp])) (by simpa using step1)
    simpa using this

/-- the converters while one of them is declared -/
def declaring (l : Dict String Converter) (name : String) (src : Dict (List String) NumVal) : Dict String Converter :=
  if src = [] then l else l ++ [(name, ⟨name, src, "", "", .int0, .int0⟩)]

theorem declaring_add {nets : Dict String InputNetwork} {l : Dict String Converter} {name : String}
    {src : Dict (List String) NumVal} (hn : name ∉ l.keys) :
    Study.addConverter name (draft h n nets (declaring l name src)) =
      (.ok (), draft h n nets (l ++ [(name, ⟨name, src, "", "", .int0, .int0⟩)])) := by
  rw [Study.addConverter_run]
  unfold declaring
  by_cases hs : src = []
  · subst hs
    rw [if_pos rfl, if_neg (show name ∉ (draft h n nets l).converters.keys from hn)]
    rfl
  · rw [if_neg hs]
    rw [if_pos (show name ∈ (draft h n nets (l ++ [(name, ⟨name, src, "", "", .int0, .int0⟩)])).converters.keys by
      simp [draft, Dict.keys])]

theorem get?_snoc {l : Dict String Converter} {name : String} {c : Converter} (hn : name ∉ l.keys) :
    (l ++ [(name, c)] : Dict String Converter).get? name = some c := Dict.get?_mid hn

theorem upd_snoc {nets : Dict String InputNetwork} {l : Dict String Converter} {name : String} {c : Converter} (hn : name ∉ l.keys)
    (f : Converter → Converter) :
    (draft h n nets (l ++ [(name, c)])).updConv name f = draft h n nets (l ++ [(name, f c)]) := by
  unfold Study.updConv draft
  simp only [Dict.modify_mid hn]

theorem draft_factory (nets : Dict String InputNetwork) (l : Dict String Converter) : (draft h n nets l).factory = ⟨h, n⟩ := rfl

theorem create_other (f : Factory) : f.create .other = .error .valueError := rfl

theorem add_source {nets : Dict String InputNetwork} {l : Dict String Converter} {name : String} {src : Dict (List String) NumVal}
    (hn : name ∉ l.keys) {net : InputNetwork} (hg : nets.get? g = some net) (hd : d ∈ net.nodes.keys) {v : NumVal} (hv : Fits h n v)
    (hk : [g, d] ∉ src.keys) (hr : Reach b h n (draft h n nets (declaring l name src))) :
    Reach b h n (draft h n nets (declaring l name (src ++ [([g, d], v)]))) := by
  refine hr.onNode (s := draft h n nets (declaring l name src)) hg hd (fun r => .nodeToConverter r name (rawOf v))
    (fun r => rawOf_raw _) ?_
  intro w r hw hh
  have hrun : Study.addConverterSrc name g d (rawOf v) (draft h n nets (l ++ [(name, ⟨name, src, "", "", .int0, .int0⟩)])) =
      (.ok (), draft h n nets (declaring l name (src ++ [([g, d], v)]))) := by
    have hget : (draft h n nets (l ++ [(name, ⟨name, src, "", "", .int0, .int0⟩)])).converters.get? name =
      some ⟨name, src, "", "", .int0, .int0⟩ := get?_snoc hn
    have e1 : (draft h n nets (l ++ [(name, ⟨name, src, "", "", .int0, .int0⟩)])).factory = ⟨h, n⟩ := rfl
    have hc := (Dict.contains_eq_false_iff _ _).mpr hk
    simp only [Study.addConverterSrc, Study.create, Dict.getE, PyM.bind_run, PyM.get_run, PyM.lift_run, hget, e1,
      create_rawOf hv, hc, PyM.modify_run]
    simp only [upd_snoc hn, Dict.set_of_not_mem hk, declaring]
    rw [if_neg (by simp)]
    simp [draft_factory, create_rawOf hv, hc, upd_snoc hn, Dict.set_of_not_mem hk]
  have hstep : step (.nodeToConverter r name (rawOf v)) w = (do
        let net ← selNetwork r
        let nd ← selNode r
        onStudy (Study.addConverterSrc name net nd (rawOf v))
        pure (.node r) : PyM World Handle)
          { w with study := draft h n nets (l ++ [(name, ⟨name, src, "", "", .int0, .int0⟩)]) } := by
    simp only [step, PyM.bind_run, onStudy, hw, declaring_add hn]
  rw [hstep]
  rcases withSel_run r (fun g d => Study.addConverterSrc name g d (rawOf v))
    { w with study := draft h n nets (l ++ [(name, ⟨name, src, "", "", .int0, .int0⟩)]) } with ⟨e, _, hno⟩ | ⟨g', d', hh', he⟩
  · exact absurd hh (hno g d)
  · have hh'' : w.heap[r]? = some ⟨some g', some d'⟩ := hh'
    rw [hh] at hh''; cases hh''
    simp only [hrun] at he
    rw [he]
    exact ⟨fun _ => ⟨_, rfl⟩, rfl⟩

/-- what is given for the cost or the maximum of a converter -/
def rawField : ConvField → Raw
  | .int0 => .other
  | .val v => rawOf v

theorem rawField_raw (x : ConvField) (v : NumVal) : rawField x ≠ .val v := by
  cases x with
  | int0 => simp [rawField]
  | val v' => exact rawOf_raw v' v

theorem add_dest {nets : Dict String InputNetwork} {l : Dict String Converter} {c : Converter} (hn : c.name ∉ l.keys)
    {net : InputNetwork} (hg : nets.get? c.destNetwork = some net) (hd : c.destNode ∈ net.nodes.keys)
    (hf : ConvAll (Fits h n) c) (hm : c.cost = .int0 → c.max = .int0) (hb : b → ∃ v w, c.cost = .val v ∧ c.max = .val w)
    (hr : Reach b h n (draft h n nets (declaring l c.name c.srcRatios))) : Reach b h n (draft h n nets (l ++ [(c.name, c)])) := by
  obtain ⟨name, src, dn, dd, cost, mx⟩ := c
  simp only at hn hg hd hm hb hr ⊢
  have S : ∃ s0, s0 = draft h n nets (l ++ [(name, ⟨name, src, "", "", .int0, .int0⟩)]) := ⟨_, rfl⟩
  obtain ⟨s0, hs0⟩ := S
  have hget : s0.converters.get? name = some ⟨name, src, "", "", .int0, .int0⟩ := by rw [hs0]; exact get?_snoc hn
  have hnet : s0.networks.get? dn = some net := by rw [hs0]; exact hg
  have e1 : s0.factory = ⟨h, n⟩ := by rw [hs0]; rfl
  have hrun : (Study.setConverterDest name dn dd (rawField cost) (rawField mx) s0).2 =
      draft h n nets (l ++ [(name, ⟨name, src, dn, dd, cost, mx⟩)]) ∧
      (b → (Study.setConverterDest name dn dd (rawField cost) (rawField mx) s0).1 = .ok ()) := by
    have hno : ¬ (Except.error .valueError, s0) = ((.ok () : Except PyErr Unit), s0) := by simp
    have hc := (Dict.contains_iff _ _).mpr hd
    have hfac : ∀ (s : Study) f, (s.updConv name f).factory = s.factory := fun _ _ => rfl
    simp only [Study.setConverterDest, Study.create, Dict.getE, PyM.bind_run, PyM.get_run, PyM.lift_run, hget, hnet, hc, hfac, e1,
      PyM.modify_run]
    cases cost with
    | int0 =>
      have hmx := hm rfl
      subst hmx
      simp only [rawField, create_other]
      refine ⟨?_, fun h => by obtain ⟨_, _, h1, _⟩ := hb h; cases h1⟩
      rw [hs0]
      simp [upd_snoc hn]
    | val v =>
      have hv := hf.2.1 v rfl
      cases mx with
      | int0 =>
        simp only [rawField, create_rawOf hv]
        refine ⟨?_, fun h => by obtain ⟨_, _, _, h1⟩ := hb h; cases h1⟩
        rw [hs0]
        simp [upd_snoc hn, create_other, draft_factory, create_rawOf hv]
      | val u =>
        have hu := hf.2.2 u rfl
        simp only [rawField, create_rawOf hv, create_rawOf hu]
        rw [hs0]
        simp [upd_snoc hn, draft_factory, create_rawOf hv, create_rawOf hu]
  refine hr.extend fun w hw => ?_
  have hk : dn ∈ nets.keys := List.mem_map.mpr ⟨_, Dict.mem_of_get? hg, rfl⟩
  have a1 : w.after (.studyNetwork dn) = ⟨w.study, w.heap ++ [⟨some dn, none⟩]⟩ := by
    unfold after
    show (network dn w).2 = _
    rw [network_run, Study.addNetwork_run, if_pos (by rw [hw]; exact hk)]
  have hadd : (Study.addConverter name w.study).2 = s0 := by rw [hw, declaring_add hn, hs0]
  have a2 : ((b → ∃ hd, (step (.netConverter w.heap.length name dn dd (rawField mx) (rawField cost))
        ⟨w.study, w.heap ++ [⟨some dn, none⟩]⟩).1 = .ok hd)) ∧
      (step (.netConverter w.heap.length name dn dd (rawField mx) (rawField cost))
        ⟨w.study, w.heap ++ [⟨some dn, none⟩]⟩).2.study = draft h n nets (l ++ [(name, ⟨name, src, dn, dd, cost, mx⟩)]) := by
    have hs : step (.netConverter w.heap.length name dn dd (rawField mx) (rawField cost)) ⟨w.study, w.heap ++ [⟨some dn, none⟩]⟩ =
      converter name dn dd (rawField mx) (rawField cost) ⟨w.study, w.heap ++ [⟨some dn, none⟩]⟩ := rfl
    rw [hs]
    rcases converter_run name dn dd (rawField mx) (rawField cost) ⟨w.study, w.heap ++ [⟨some dn, none⟩]⟩ with
      ⟨e, h1, h2⟩ | ⟨h1, h2⟩
    · rw [h2]
      simp only [hadd] at h1 ⊢
      refine ⟨fun hb' => ?_, hrun.1⟩
      rw [hrun.2 hb'] at h1
      cases h1
    · rw [h2]
      simp only [hadd] at h1 ⊢
      exact ⟨fun _ => ⟨_, rfl⟩, hrun.1⟩
  refine ⟨[.studyNetwork dn, .netConverter w.heap.length name dn dd (rawField mx) (rawField cost)], ?_, ?_, ?_⟩
  · intro x hx
    simp at hx
    rcases hx with rfl | rfl
    · trivial
    · exact ⟨rawField_raw _, rawField_raw _⟩
  · intro hb'
    refine ⟨⟨.net w.heap.length, ?_⟩, ?_, trivial⟩
    · show (network dn w).1 = _
      rw [network_run]
    · rw [a1]
      exact a2.1 hb'
  · simp only [World.run, List.foldl_cons, List.foldl_nil, a1]
    exact a2.2

/-- what is asked of a converter -/
structure ConvFine (b : Prop) (h n : ℕ) (nets : Dict String InputNetwork) (p : String × Converter) : Prop where
  name : p.2.name = p.1
  sources : ∀ k ∈ p.2.srcRatios.map Prod.fst, ∃ g d net, k = [g, d] ∧ nets.get? g = some net ∧ d ∈ net.nodes.keys
  distinct : (p.2.srcRatios.map Prod.fst).Nodup
  all : ConvAll (Fits h n) p.2
  fields : p.2.cost = .int0 → p.2.max = .int0
  dest : (p.2.destNetwork = "" ∧ p.2.destNode = "" ∧ p.2.cost = .int0 ∧ p.2.max = .int0) ∨
    ∃ net, nets.get? p.2.destNetwork = some net ∧ p.2.destNode ∈ net.nodes.keys
  declared : b → (p.2.destNetwork = "" ∧ p.2.destNode = "" ∧ p.2.cost = .int0 ∧ p.2.max = .int0 ∧ p.2.srcRatios ≠ []) ∨
    ∃ v w, p.2.cost = .val v ∧ p.2.max = .val w

theorem undirected {c : Converter} (h1 : c.destNetwork = "") (h2 : c.destNode = "") (h3 : c.cost = .int0) (h4 : c.max = .int0) :
    c = ⟨c.name, c.srcRatios, "", "", .int0, .int0⟩ := by
  obtain ⟨name, src, dn, dd, cost, mx⟩ := c
  simp only at h1 h2 h3 h4
  subst h1 h2 h3 h4
  rfl

theorem add_converter {nets : Dict String InputNetwork} {l : Dict String Converter} {p : String × Converter}
    (hn : p.1 ∉ l.map Prod.fst) (hp : ConvFine b h n nets p) (hr : Reach b h n (draft h n nets l)) :
    Reach b h n (draft h n nets (l ++ [p])) := by
  obtain ⟨name, c⟩ := p
  obtain rfl : c.name = name := hp.name
  have hsrc : Reach b h n (draft h n nets (declaring l c.name c.srcRatios)) := by
    refine grow (fun src => Reach b h n (draft h n nets (declaring l c.name src))) (fun x => x ∈ c.srcRatios) Prod.fst ?_ c.srcRatios
      hp.distinct (fun x hx => hx) (by simpa [declaring] using hr)
    rintro src ⟨k, v⟩ hk hx hr
    obtain ⟨g, d, net, rfl, h1, h2⟩ := hp.sources k (List.mem_map.mpr ⟨_, hx, rfl⟩)
    exact add_source hn h1 h2 (hp.all.1 _ hx) hk hr
  rcases hp.dest with hd | ⟨net, h1, h2⟩
  · have hc := undirected (c := c) hd.1 hd.2.1 hd.2.2.1 hd.2.2.2
    by_cases hs : c.srcRatios = []
    · have hnb : ¬ b := by
        intro hb
        rcases hp.declared hb with h | ⟨v, w, h, _⟩
        · exact h.2.2.2.2 hs
        · have := hd.2.2.1
          simp only at h this
          rw [h] at this
          cases this
      refine hr.extend fun w hw => ⟨[.nodeToConverter 0 c.name .other], ?_, fun h => absurd h hnb, ?_⟩
      · intro x hx
        rw [List.mem_singleton] at hx
        subst hx
        simp [RawCall]
      · have hadd : (Study.addConverter c.name w.study).2 = draft h n nets (l ++ [(c.name, c)]) := by
          have := declaring_add (h := h) (n := n) (nets := nets) (src := []) hn
          simp only [declaring, if_true] at this
          rw [hw, this]
          simp only
          conv_rhs => rw [hc]
          rw [hs]
        simp only [World.run, List.foldl_cons, List.foldl_nil, after]
        rcases toConverter_run 0 c.name .other w with ⟨e, he⟩ | ⟨g, d, _, he⟩ <;> rw [he]
        · exact hadd
        · rcases Study.addConverterSrc_run c.name g d .other (Study.addConverter c.name w.study).2 with ⟨e, he'⟩ | ⟨_, _, _, _, h3, _⟩
          · simp only [he']
            exact hadd
          · simp [Factory.create] at h3
    · have : declaring l c.name c.srcRatios = l ++ [(c.name, c)] := by
        unfold declaring
        rw [if_neg hs]
        conv_rhs => rw [hc]
      rw [this] at hsrc
      exact hsrc
  · by_cases hdef : c.destNetwork = "" ∧ c.destNode = "" ∧ c.cost = .int0 ∧ c.max = .int0 ∧ c.srcRatios ≠ []
    · have hc := undirected hdef.1 hdef.2.1 hdef.2.2.1 hdef.2.2.2.1
      have : declaring l c.name c.srcRatios = l ++ [(c.name, c)] := by
        unfold declaring
        rw [if_neg hdef.2.2.2.2]
        conv_rhs => rw [hc]
      rw [this] at hsrc
      exact hsrc
    · exact add_dest hn h1 h2 hp.all hp.fields (fun hb => (hp.declared hb).resolve_left hdef) hsrc

end

/-- every well-formed study can be declared, with calls that are all accepted when its converters allow it -/
theorem reach_of_wellFormed {s : Study} (hs : WellFormed s) (b : Prop) (hb : b → ConvertersDeclared s) :
    Reach b s.horizon s.nbScn s := by
  have hu := hs.names
  have hnets : Reach b s.horizon s.nbScn (draft s.horizon s.nbScn s.networks []) := by
    refine fill_networks s.networks [] (by simpa [Dict.keys] using hu.networks) ?_ (all_bare hu.networks hu.nodes)
    rintro ⟨g, net⟩ hp
    refine ⟨hu.nodes _ hp, ?_⟩
    rintro ⟨d, m⟩ ha
    have hn : HasNode s g d m := ⟨net, hp, ha⟩
    exact ⟨hs.series.1 g d m hn, hs.checks g d m hn, hu.consumptions g d m hn, hu.productions g d m hn, hu.storages g d m hn,
      hu.links g d m hn, hs.links g net hp d m ha⟩
  have hnode : ∀ g d m, HasNode s g d m → ∃ net, s.networks.get? g = some net ∧ d ∈ net.nodes.keys := by
    rintro g d m ⟨net, h1, h2⟩
    exact ⟨net, Dict.get?_of_mem hu.networks h1, List.mem_map.mpr ⟨_, h2, rfl⟩⟩
  have hall : Reach b s.horizon s.nbScn (draft s.horizon s.nbScn s.networks s.converters) := by
    refine grow (fun l => Reach b s.horizon s.nbScn (draft s.horizon s.nbScn s.networks l))
      (ConvFine b s.horizon s.nbScn s.networks) Prod.fst (fun l p hn hp hr => add_converter hn hp hr) s.converters hu.converters ?_ hnets
    intro p hp
    have hc := hs.converters p hp
    refine ⟨hc.name, ?_, hu.sources p hp, hs.series.2 p hp, hs.fields p hp, ?_, fun h => hb h p hp⟩
    · intro k hk
      obtain ⟨g, d, m, rfl, hm⟩ := hc.sources k hk
      obtain ⟨net, h1, h2⟩ := hnode g d m hm
      exact ⟨g, d, net, rfl, h1, h2⟩
    · rcases hc.dest with h | ⟨m, hm⟩
      · exact .inl h
      · exact .inr (hnode _ _ m hm)
  have e : draft s.horizon s.nbScn s.networks s.converters = s := by
    obtain ⟨v, nets, convs, h, n⟩ := s
    have := hs.version
    simp only at this
    subst this
    rfl
  rw [e] at hall
  exact hall

/-! ### Parts of a well-formed study -/

theorem subperm_nodup {α K : Type} {l l' : List α} (f : α → K) (h : l'.Subperm l) (hn : (l.map f).Nodup) : (l'.map f).Nodup := by
  obtain ⟨k, hp, hs⟩ := h
  exact (hp.map f).nodup_iff.mp ((hs.map f).nodup hn)

/-- a node of the part is a part of a node -/
theorem Spec.SomePart.node {s s' : Study} (h : SomePart s' s) {g d : String} {n' : InputNode} (hn : HasNode s' g d n') :
    ∃ n, HasNode s g d n ∧ SomeOf n' n := by
  obtain ⟨net', h1, h2⟩ := hn
  have key : ∀ {l l' : Dict String InputNetwork} (_ : List.Forall₂ (fun p q => p.1 = q.1 ∧
      List.Forall₂ (fun a b => a.1 = b.1 ∧ SomeOf a.2 b.2) p.2.nodes q.2.nodes) l l'), (g, net') ∈ l →
      ∃ net, (g, net) ∈ l' ∧ List.Forall₂ (fun a b => a.1 = b.1 ∧ SomeOf a.2 b.2) net'.nodes net.nodes := by
    intro l l' hf hm
    induction hf with
    | nil => cases hm
    | @cons p q _ _ hpq _ ih =>
      rcases List.mem_cons.mp hm with rfl | hm
      · obtain ⟨e, hx⟩ := hpq
        simp only at e
        subst e
        exact ⟨q.2, List.mem_cons_self, hx⟩
      · obtain ⟨net, h3, h4⟩ := ih hm
        exact ⟨net, List.mem_cons_of_mem _ h3, h4⟩
  have key' : ∀ {l l' : Dict String InputNode} (_ : List.Forall₂ (fun a b => a.1 = b.1 ∧ SomeOf a.2 b.2) l l'), (d, n') ∈ l →
      ∃ n, (d, n) ∈ l' ∧ SomeOf n' n := by
    intro l l' hf hm
    induction hf with
    | nil => cases hm
    | @cons p q _ _ hpq _ ih =>
      rcases List.mem_cons.mp hm with rfl | hm
      · obtain ⟨e, hx⟩ := hpq
        simp only at e
        subst e
        exact ⟨q.2, List.mem_cons_self, hx⟩
      · obtain ⟨net, h3, h4⟩ := ih hm
        exact ⟨net, List.mem_cons_of_mem _ h3, h4⟩
  obtain ⟨net, h3, h4⟩ := key h.networks h1
  obtain ⟨n, h5, h6⟩ := key' h4 h2
  exact ⟨n, ⟨net, h3, h5⟩, h6⟩

/-- names do not change -/
theorem part_keys {V W : Type} {R : V → W → Prop} {l : Dict String V} {l' : Dict String W}
    (h : List.Forall₂ (fun p q => p.1 = q.1 ∧ R p.2 q.2) l l') : l.map Prod.fst = l'.map Prod.fst := by
  induction h with
  | nil => rfl
  | cons hpq _ ih => simp [hpq.1, ih]

/-- a network of the part has the nodes of the network -/
theorem Spec.SomePart.network {s s' : Study} (h : SomePart s' s) {g : String} {net' : InputNetwork} (hm : (g, net') ∈ s'.networks) :
    ∃ net, (g, net) ∈ s.networks ∧ List.Forall₂ (fun a b => a.1 = b.1 ∧ SomeOf a.2 b.2) net'.nodes net.nodes := by
  have hf := h.networks
  revert hm
  generalize s'.networks = l at hf
  generalize s.networks = l' at hf
  intro hm
  induction hf with
  | nil => cases hm
  | @cons p q _ _ hpq _ ih =>
    rcases List.mem_cons.mp hm with rfl | hm
    · obtain ⟨e, hx⟩ := hpq
      simp only at e
      subst e
      exact ⟨q.2, List.mem_cons_self, hx⟩
    · obtain ⟨net, h3, h4⟩ := ih hm
      exact ⟨net, List.mem_cons_of_mem _ h3, h4⟩

/-- the nodes are all there -/
theorem Spec.SomePart.has {s s' : Study} (h : SomePart s' s) {g d : String} (hn : ∃ n, HasNode s g d n) : ∃ n, HasNode s' g d n := by
  obtain ⟨n, net, h1, h2⟩ := hn
  have hf := h.networks
  revert h1
  unfold HasNode
  generalize s'.networks = l at hf
  generalize s.networks = l' at hf
  intro h1
  induction hf with
  | nil => cases h1
  | @cons p q _ _ hpq _ ih =>
    rcases List.mem_cons.mp h1 with rfl | h1
    · obtain ⟨e, hx⟩ := hpq
      simp only at e hx
      have : d ∈ p.2.nodes.map Prod.fst := by
        rw [part_keys hx]
        exact List.mem_map.mpr ⟨_, h2, rfl⟩
      obtain ⟨⟨d', m⟩, h3, rfl⟩ := List.mem_map.mp this
      exact ⟨m, p.2, by rw [← e]; exact List.mem_cons_self, h3⟩
    · obtain ⟨m, net', h3, h4⟩ := ih h1
      exact ⟨m, net', List.mem_cons_of_mem _ h3, h4⟩

theorem wellFormed_part {s s' : Study} (hs : WellFormed s) (h : SomePart s' s) : WellFormed s' := by
  have hu := hs.names
  refine ⟨h.version.trans hs.version, ⟨?_, ?_, ?_, ?_, ?_, ?_, subperm_nodup _ h.converters hu.converters, ?_⟩, ?_, ?_, ⟨?_, ?_⟩, ?_, ?_⟩
  · rw [part_keys (R := fun a b : InputNetwork => List.Forall₂ (fun a b => a.1 = b.1 ∧ SomeOf a.2 b.2) a.nodes b.nodes) h.networks]
    exact hu.networks
  · rintro ⟨g, net'⟩ hp
    obtain ⟨net, h1, h2⟩ := h.network hp
    show (net'.nodes.map Prod.fst).Nodup
    rw [part_keys h2]
    exact hu.nodes _ h1
  · intro g d n hn
    obtain ⟨m, hm, hx⟩ := h.node hn
    exact subperm_nodup _ hx.1 (hu.consumptions g d m hm)
  · intro g d n hn
    obtain ⟨m, hm, hx⟩ := h.node hn
    exact subperm_nodup _ hx.2 (hu.productions g d m hm)
  · intro g d n hn
    obtain ⟨m, hm, hx⟩ := h.node hn
    exact subperm_nodup _ hx.3 (hu.storages g d m hm)
  · intro g d n hn
    obtain ⟨m, hm, hx⟩ := h.node hn
    exact subperm_nodup _ hx.4 (hu.links g d m hm)
  · exact fun p hp => hu.sources p (h.converters.subset hp)
  · intro g net' hp d n' hn l hl
    obtain ⟨net, h1, h2⟩ := h.network hp
    rw [part_keys h2]
    have : d ∈ net.nodes.map Prod.fst := by
      rw [← part_keys h2]
      exact List.mem_map.mpr ⟨_, hn, rfl⟩
    obtain ⟨m, ⟨net2, h3, h4⟩, hx⟩ := h.node ⟨net', hp, hn⟩
    have e1 := Dict.get?_of_mem hu.networks h1
    have e2 := Dict.get?_of_mem hu.networks h3
    rw [e1] at e2
    cases e2
    exact hs.links g net h1 d m h4 l (hx.4.subset hl)
  · intro p hp
    have hc := hs.converters p (h.converters.subset hp)
    refine ⟨hc.name, ?_, ?_⟩
    · intro k hk
      obtain ⟨g, d, m, rfl, hm⟩ := hc.sources k hk
      obtain ⟨m', hm'⟩ := h.has ⟨m, hm⟩
      exact ⟨g, d, m', rfl, hm'⟩
    · rcases hc.dest with hd | hd
      · exact .inl hd
      · exact .inr (h.has hd)
  · intro g d n hn
    obtain ⟨m, hm, hx⟩ := h.node hn
    have ha := hs.series.1 g d m hm
    rw [h.horizon, h.nbScn]
    exact ⟨fun c hc => ha.1 c (hx.1.subset hc), fun c hc => ha.2 c (hx.2.subset hc), fun c hc => ha.3 c (hx.3.subset hc),
      fun c hc => ha.4 c (hx.4.subset hc)⟩
  · intro p hp
    rw [h.horizon, h.nbScn]
    exact hs.series.2 p (h.converters.subset hp)
  · intro g d n hn
    obtain ⟨m, hm, hx⟩ := h.node hn
    have ha := hs.checks g d m hm
    exact ⟨fun c hc => ha.1 c (hx.1.subset hc), fun c hc => ha.2 c (hx.2.subset hc), fun c hc => ha.3 c (hx.3.subset hc),
      fun c hc => ha.4 c (hx.4.subset hc)⟩
  · exact fun p hp => hs.fields p (h.converters.subset hp)

/-! ### AllAccepted calls -/

/-- a converter that an accepted call leaves -/
def DeclaredConv (c : Converter) : Prop :=
  (c.destNetwork = "" ∧ c.destNode = "" ∧ c.cost = .int0 ∧ c.max = .int0 ∧ c.srcRatios ≠ []) ∨ ∃ v w, c.cost = .val v ∧ c.max = .val w

theorem declared_upd {s s1 : Study} {name : String} (hs : ∀ p ∈ s.converters, DeclaredConv p.2)
    (h1 : s1 = (Study.addConverter name s).2) {f : Converter → Converter}
    (hf : ∀ c, DeclaredConv c ∨ c = ⟨name, [], "", "", .int0, .int0⟩ → DeclaredConv (f c)) (hu : s.converters.keys.Nodup) :
    ∀ p ∈ (s1.updConv name f).converters, DeclaredConv p.2 := by
  have hmem : ∀ p ∈ s1.converters, DeclaredConv p.2 ∨ p = (name, ⟨name, [], "", "", .int0, .int0⟩) := by
    intro p hp
    rw [h1, Study.addConverter_run] at hp
    dsimp only at hp
    split at hp
    · exact .inl (hs p hp)
    · rcases mem_snoc hp with hp | rfl
      · exact .inl (hs p hp)
      · exact .inr rfl
  have hu1 : s1.converters.keys.Nodup := by
    rw [h1, Study.addConverter_run]
    dsimp only
    split
    · exact hu
    · rename_i hn
      simp only [Dict.keys, List.map_append, List.map_cons, List.map_nil]
      rw [List.nodup_append]
      refine ⟨hu, by simp, ?_⟩
      intro a ha b hb
      simp at hb
      rintro rfl
      exact hn (hb ▸ ha)
  intro p hp
  rcases (Dict.mem_modify_iff hu1).mp hp with ⟨hp, hne⟩ | ⟨c, hc, rfl⟩
  · rcases hmem p hp with h | rfl
    · exact h
    · exact absurd rfl hne
  · refine hf c ?_
    rcases hmem _ hc with h | h
    · exact .inl h
    · exact .inr (congrArg Prod.snd h)

theorem declared_after {w : World} (hw : ConvertersDeclared w.study) (hu : w.study.converters.keys.Nodup) {c : Call}
    (ha : ∃ hd, (step c w).1 = .ok hd) : ConvertersDeclared (w.after c).study := by
  have hsame : ∀ {s s' : Study}, s'.converters = s.converters → ConvertersDeclared s → ConvertersDeclared s' := by
    intro s s' e h p hp
    rw [e] at hp
    exact h p hp
  have hconv : ∀ name net nd mx cost, (∃ hd, (converter name net nd mx cost w).1 = .ok hd) →
      ConvertersDeclared (converter name net nd mx cost w).2.study := by
    intro name net nd mx cost ⟨hd, hok⟩
    rcases converter_run name net nd mx cost w with ⟨e, _, h⟩ | ⟨h1, h⟩
    · rw [h] at hok; cases hok
    · rw [h]
      dsimp only
      rcases Study.setConverterDest_run name net nd cost mx (Study.addConverter name w.study).2 with ⟨e, he⟩ |
        ⟨c, _, _, _, _, _, hd⟩
      · rw [he] at h1; cases h1
      · rcases hd with ⟨e, _, he⟩ | ⟨cv, e, _, _, he⟩ | ⟨cv, mv, _, _, he⟩
        · rw [he] at h1; cases h1
        · rw [he] at h1; cases h1
        · rw [he]
          dsimp only
          unfold Study.withMax Study.withCost
          rw [updConv_updConv, withAll_eq]
          exact declared_upd hw rfl (fun c _ => .inr ⟨cv, mv, rfl, rfl⟩) hu
  refine World.after_keeps' (P := ConvertersDeclared) ?_ ?_ ?_ ?_ ?_ ?_ c hw fun hc => ?_
  · intro s g h
    rw [Study.addNetwork_run]
    split
    · exact h
    · exact h
  · intro s g d h
    rcases Study.addNode_run g d s with ⟨_, he⟩ | ⟨net, _, he⟩ <;> rw [he]
    · exact h
    · dsimp only
      split
      · exact h
      · exact h
  · intro s g a b c q h
    rcases Study.addLink_run g a b c q s with ⟨e, he⟩ | ⟨_, _, qv, cv, _, _, _, _, _, hq, _, he⟩ <;> rw [he] <;> exact h
  · intro s g d m c q h
    rcases Study.addConsumption_run g d m c q s with ⟨e, he⟩ | ⟨_, _, qv, cv, _, _, _, _, hq, _, he⟩ <;> rw [he] <;> exact h
  · intro s g d m c q h
    rcases Study.addProduction_run g d m c q s with ⟨e, he⟩ | ⟨_, _, qv, cv, _, _, _, _, hq, _, he⟩ <;> rw [he] <;> exact h
  · intro s g d a h
    rcases Study.addStorage_run g d a s with ⟨e, he⟩ |
      ⟨_, _, cap, fi, fo, cv, ev, _, _, _, _, _, h6, h7, _, h9, h10, _, h12, h13, _, he⟩ <;> rw [he] <;> exact h
  · unfold after
    cases c with
    | netConverter r name net nd mx cost => exact hconv _ _ _ _ _ ha
    | nodeConverter r name net nd mx cost => exact hconv _ _ _ _ _ ha
    | nodeToConverter r name ratio =>
      obtain ⟨hd, hok⟩ := ha
      rcases toConverter_run r name ratio w with ⟨e, h⟩ | ⟨g, d, _, h⟩
      · rw [h] at hok; cases hok
      · rw [h] at hok ⊢
        rcases Study.addConverterSrc_run name g d ratio (Study.addConverter name w.study).2 with ⟨e, he⟩ | ⟨c, rv, _, _, _, he⟩
        · rw [he] at hok; cases hok
        · rw [he]
          refine declared_upd hw rfl (fun c hc => ?_) hu
          have hne : c.srcRatios.set [g, d] rv ≠ [] := by
            cases hsrc : c.srcRatios with
            | nil => simp [Dict.set]
            | cons p l => simp only [Dict.set]; split <;> simp
          rcases hc with hc | rfl
          · rcases hc with hc | ⟨v, w, h3, h4⟩
            · exact .inl ⟨hc.1, hc.2.1, hc.2.2.1, hc.2.2.2.1, hne⟩
            · exact .inr ⟨v, w, h3, h4⟩
          · exact .inl ⟨rfl, rfl, rfl, rfl, hne⟩
    | _ => exact absurd hc (by simp [Props.IsConverterCall])

theorem declared_run {w : World} (hi : WorldInv w) (cs : List Call) (hw : ConvertersDeclared w.study) (ha : AllAccepted w cs) :
    ConvertersDeclared (w.run cs).study := by
  induction cs generalizing w with
  | nil => exact hw
  | cons c cs ih => exact ih (WorldInv.after hi c) (declared_after hw hi.study.names.converters ha.1) ha.2

end Hadar
