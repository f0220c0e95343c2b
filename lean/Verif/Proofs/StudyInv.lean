import Verif.Proofs.Study

/-! # Transitions of a study and the invariants they preserve -/

set_option linter.unusedSimpArgs false

namespace Hadar

open Spec

/-- an element added at the end of one of the lists of a node; `V` holds for its series -/
inductive NodeStep (V : NumVal → Prop) (nodes : List String) (n : InputNode) : InputNode → Prop
  | cons (c : Consumption) (hn : c.name ∉ n.consumptions.map (·.name)) (hq : V c.quantity)
      (hc : V c.cost) : NodeStep V nodes n { n with consumptions := n.consumptions ++ [c] }
  | prod (c : Production) (hn : c.name ∉ n.productions.map (·.name)) (hq : V c.quantity)
      (hc : V c.cost) : NodeStep V nodes n { n with productions := n.productions ++ [c] }
  | stor (c : Storage) (hn : c.name ∉ n.storages.map (·.name)) (h1 : V c.capacity)
      (h2 : V c.flowIn) (h3 : V c.flowOut) (h4 : V c.cost) (h5 : V c.eff) :
      NodeStep V nodes n { n with storages := n.storages ++ [c] }
  | link (c : Link) (hn : c.dest ∉ n.links.map (·.dest)) (hd : c.dest ∈ nodes)
      (hq : V c.quantity) (hc : V c.cost) : NodeStep V nodes n { n with links := n.links ++ [c] }

/-- one observable change of a study -/
inductive Trans (V : NumVal → Prop) (s : Study) : Study → Prop
  | newNet (g : String) (h : g ∉ s.networks.keys) :
      Trans V s { s with networks := s.networks ++ [(g, ⟨[]⟩)] }
  | newNode (g d : String) (net : InputNetwork) (hg : s.networks.get? g = some net)
      (hd : d ∉ net.nodes.keys) :
      Trans V s (s.updNet g (fun net => ⟨net.nodes.set d ⟨[], [], [], []⟩⟩))
  | node (g d : String) (net : InputNetwork) (n : InputNode) (f : InputNode → InputNode)
      (hg : s.networks.get? g = some net) (hd : net.nodes.get? d = some n)
      (hf : NodeStep V net.nodes.keys n (f n)) : Trans V s (s.updNode g d f)
  | newConv (name : String) (h : name ∉ s.converters.keys) :
      Trans V s { s with converters := s.converters ++ [(name, ⟨name, [], "", "", .int0, .int0⟩)] }
  | convSrc (name g d : String) (c : Converter) (v : NumVal) (hc : s.converters.get? name = some c)
      (hk : [g, d] ∉ c.srcRatios.keys) (hn : ∃ n, HasNode s g d n) (hv : V v) :
      Trans V s (s.updConv name (fun c => { c with srcRatios := c.srcRatios.set [g, d] v }))
  | convDest (name g d : String) (c : Converter) (hc : s.converters.get? name = some c)
      (h : c.destNetwork = "" ∨ c.destNode = "") (hn : ∃ n, HasNode s g d n) :
      Trans V s (s.withDest name g d)
  | convCost (name : String) (c : Converter) (v : NumVal) (hc : s.converters.get? name = some c)
      (hn : ∃ n, HasNode s c.destNetwork c.destNode n) (hv : V v) : Trans V s (s.withCost name v)
  | convMax (name : String) (c : Converter) (v : NumVal) (hc : s.converters.get? name = some c)
      (hn : ∃ n, HasNode s c.destNetwork c.destNode n) (hv : V v) : Trans V s (s.withMax name v)

/-- finitely many changes -/
inductive TransStar (V : NumVal → Prop) : Study → Study → Prop
  | refl (s : Study) : TransStar V s s
  | tail (s s' s'' : Study) (h : TransStar V s s') (h' : Trans V s' s'') : TransStar V s s''

theorem TransStar.single {V : NumVal → Prop} {s s' : Study} (h : Trans V s s') :
    TransStar V s s' := .tail _ _ _ (.refl s) h

theorem TransStar.trans {V : NumVal → Prop} {s s' s'' : Study} (h : TransStar V s s')
    (h' : TransStar V s' s'') : TransStar V s s'' := by
  induction h' with
  | refl => exact h
  | tail _ _ _ hs ih => exact .tail _ _ _ ih hs

/-- the invariant of reachable studies -/
structure StudyInv (s : Study) : Prop where
  names : UniqueNames s
  links : LinksExist s
  convs : ConvertersOk s

theorem hasNode_of_get? {s : Study} {g d : String} {net : InputNetwork} {n : InputNode}
    (hg : s.networks.get? g = some net) (hd : net.nodes.get? d = some n) : HasNode s g d n :=
  ⟨net, Dict.mem_of_get? hg, Dict.mem_of_get? hd⟩

theorem hasNode_of_keys {s : Study} {g d : String} {net : InputNetwork}
    (hg : s.networks.get? g = some net) (hd : d ∈ net.nodes.keys) : ∃ n, HasNode s g d n := by
  obtain ⟨⟨k, n⟩, hm, rfl⟩ := List.mem_map.mp hd
  exact ⟨n, net, Dict.mem_of_get? hg, hm⟩

theorem StudyInv.get?_network {s : Study} (h : StudyInv s) {g : String} {net : InputNetwork}
    (hm : (g, net) ∈ s.networks) : s.networks.get? g = some net :=
  Dict.get?_of_mem h.names.networks hm

theorem StudyInv.get?_node {s : Study} (h : StudyInv s) {g d : String} {net : InputNetwork}
    {n : InputNode} (hm : (g, net) ∈ s.networks) (hn : (d, n) ∈ net.nodes) :
    net.nodes.get? d = some n :=
  Dict.get?_of_mem (h.names.nodes _ hm) hn

theorem Dict.exists_mem_modify {K V : Type} [DecidableEq K] {d : Dict K V} {k k0 : K} {v : V}
    {f : V → V} (h : (k, v) ∈ d) : ∃ v', (k, v') ∈ d.modify k0 f := by
  have : k ∈ (d.modify k0 f).keys := by
    rw [Dict.keys_modify]; exact List.mem_map.mpr ⟨_, h, rfl⟩
  obtain ⟨⟨k', v'⟩, hm, rfl⟩ := List.mem_map.mp this
  exact ⟨v', hm⟩

/-- networks after an in-place change -/
theorem mem_updNet {s : Study} {g g' : String} {f : InputNetwork → InputNetwork}
    {net' : InputNetwork} (h : (g', net') ∈ (s.updNet g f).networks) :
    (g', net') ∈ s.networks ∨ (g' = g ∧ ∃ net, (g, net) ∈ s.networks ∧ net' = f net) := by
  rcases Dict.mem_modify h with h | ⟨v, hv, e⟩
  · exact .inl h
  · simp only [Prod.mk.injEq] at e
    exact .inr ⟨e.1, v, hv, e.2⟩

theorem hasNode_updNet_mono {s : Study} {g g' d : String} {f : InputNetwork → InputNetwork}
    (hf : ∀ net, ∀ k ∈ net.nodes.keys, k ∈ (f net).nodes.keys) (hu : (s.networks.keys).Nodup)
    (h : ∃ n, HasNode s g' d n) : ∃ n, HasNode (s.updNet g f) g' d n := by
  obtain ⟨n, net, hm, hn⟩ := h
  by_cases hg : g' = g
  · subst hg
    have : (g', f net) ∈ (s.updNet g' f).networks :=
      (Dict.mem_modify_iff hu).mpr (.inr ⟨net, hm, rfl⟩)
    have hk := hf net d (List.mem_map.mpr ⟨_, hn, rfl⟩)
    obtain ⟨⟨k, n'⟩, hm', rfl⟩ := List.mem_map.mp hk
    exact ⟨n', f net, this, hm'⟩
  · exact ⟨n, net, (Dict.mem_modify_iff hu).mpr (.inl ⟨hm, hg⟩), hn⟩

theorem NodeStep.names {V : NumVal → Prop} {ks : List String} {n n' : InputNode}
    (h : NodeStep V ks n n')
    (h1 : (n.consumptions.map (·.name)).Nodup) (h2 : (n.productions.map (·.name)).Nodup)
    (h3 : (n.storages.map (·.name)).Nodup) (h4 : (n.links.map (·.dest)).Nodup) :
    (n'.consumptions.map (·.name)).Nodup ∧ (n'.productions.map (·.name)).Nodup ∧
      (n'.storages.map (·.name)).Nodup ∧ (n'.links.map (·.dest)).Nodup := by
  have key : ∀ (l : List String) (x : String), l.Nodup → x ∉ l → (l ++ [x]).Nodup := by
    intro l x hl hx
    rw [List.nodup_append]
    refine ⟨hl, by simp, ?_⟩
    intro a ha b hb
    simp at hb; subst hb
    rintro rfl; exact hx ha
  cases h with
  | cons c hn => exact ⟨by simpa using key _ _ h1 hn, h2, h3, h4⟩
  | prod c hn => exact ⟨h1, by simpa using key _ _ h2 hn, h3, h4⟩
  | stor c hn => exact ⟨h1, h2, by simpa using key _ _ h3 hn, h4⟩
  | link c hn => exact ⟨h1, h2, h3, by simpa using key _ _ h4 hn⟩

theorem NodeStep.links {V : NumVal → Prop} {ks : List String} {n n' : InputNode}
    (h : NodeStep V ks n n') (hl : ∀ l ∈ n.links, l.dest ∈ ks) : ∀ l ∈ n'.links, l.dest ∈ ks := by
  cases h with
  | cons | prod | stor => exact hl
  | link c hn hd =>
    intro l hm
    simp only [List.mem_append, List.mem_singleton] at hm
    rcases hm with hm | rfl
    · exact hl l hm
    · exact hd

/-- converters stay fine when nodes are only added -/
theorem Spec.ConvertersOk.mono {s s' : Study} (h : ConvertersOk s) (hc : s'.converters = s.converters)
    (hn : ∀ g d, (∃ n, HasNode s g d n) → ∃ n, HasNode s' g d n) : ConvertersOk s' := by
  intro p hp
  rw [hc] at hp
  have hp := h p hp
  refine ⟨hp.name, ?_, ?_⟩
  · intro k hk
    obtain ⟨g, d, n, e, hn'⟩ := hp.sources k hk
    obtain ⟨n', hn''⟩ := hn g d ⟨n, hn'⟩
    exact ⟨g, d, n', e, hn''⟩
  · rcases hp.dest with h | h
    · exact .inl h
    · exact .inr (hn _ _ h)

theorem uniqueNames_of_networks {s s' : Study} (h : UniqueNames s) (hc : s'.converters = s.converters)
    (h1 : (s'.networks.map Prod.fst).Nodup)
    (h2 : ∀ p ∈ s'.networks, (p.2.nodes.map Prod.fst).Nodup)
    (h3 : ∀ g d n, HasNode s' g d n → (n.consumptions.map (·.name)).Nodup ∧
      (n.productions.map (·.name)).Nodup ∧ (n.storages.map (·.name)).Nodup ∧
      (n.links.map (·.dest)).Nodup) : UniqueNames s' where
  networks := h1
  nodes := h2
  consumptions g d n hn := (h3 g d n hn).1
  productions g d n hn := (h3 g d n hn).2.1
  storages g d n hn := (h3 g d n hn).2.2.1
  links g d n hn := (h3 g d n hn).2.2.2
  converters := by rw [hc]; exact h.converters
  sources := by rw [hc]; exact h.sources

theorem Spec.UniqueNames.node {s : Study} (h : UniqueNames s) {g d : String} {n : InputNode}
    (hn : HasNode s g d n) : (n.consumptions.map (·.name)).Nodup ∧
      (n.productions.map (·.name)).Nodup ∧ (n.storages.map (·.name)).Nodup ∧
      (n.links.map (·.dest)).Nodup :=
  ⟨h.consumptions _ _ _ hn, h.productions _ _ _ hn, h.storages _ _ _ hn, h.links _ _ _ hn⟩

/-- invariants after a change of one converter -/
theorem studyInv_updConv {s : Study} (h : StudyInv s) {name : String} {f : Converter → Converter}
    {c : Converter} (hc : s.converters.get? name = some c)
    (hsrc : ((f c).srcRatios.map Prod.fst).Nodup) (hok : ConverterOk s name (f c)) :
    StudyInv (s.updConv name f) := by
  have hcase : ∀ p ∈ (s.updConv name f).converters, p ∈ s.converters ∨ p = (name, f c) := by
    intro p hp
    rcases Dict.mem_modify hp with hp | ⟨v, hv, e⟩
    · exact .inl hp
    · have := Dict.get?_of_mem h.names.converters hv
      rw [hc] at this; cases this
      exact .inr e
  have hh : ∀ g d n, HasNode (s.updConv name f) g d n ↔ HasNode s g d n := fun _ _ _ => Iff.rfl
  refine ⟨?_, h.links, ?_⟩
  · refine ⟨h.names.networks, h.names.nodes, h.names.consumptions, h.names.productions,
      h.names.storages, h.names.links, ?_, ?_⟩
    · exact Dict.nodup_modify (d := s.converters) name f h.names.converters
    · intro p hp
      rcases hcase p hp with hp | rfl
      · exact h.names.sources p hp
      · exact hsrc
  · intro p hp
    rcases hcase p hp with hp | rfl
    · have := h.convs p hp
      exact ⟨this.name, this.sources, this.dest⟩
    · exact ⟨hok.name, hok.sources, hok.dest⟩

theorem updConv_updConv (s : Study) (name : String) (f f' : Converter → Converter) :
    (s.updConv name f).updConv name f' = s.updConv name (fun c => f' (f c)) := by
  have : ∀ d : Dict String Converter,
      (d.modify name f).modify name f' = d.modify name (fun c => f' (f c)) := by
    intro d
    induction d with
    | nil => rfl
    | cons p d ih =>
      obtain ⟨k, v⟩ := p
      by_cases hk : k = name
      · simp [Dict.modify, hk]
      · simp [Dict.modify, hk, ih]
  simp [Study.updConv, this]

theorem Study.withDest_eq (s : Study) (name g d : String) :
    s.withDest name g d = s.updConv name (fun c => { c with destNetwork := g, destNode := d }) := by
  rw [Study.withDest, updConv_updConv]

theorem StudyInv.trans {V : NumVal → Prop} {s s' : Study} (h : StudyInv s) (ht : Trans V s s') :
    StudyInv s' := by
  cases ht with
  | newNet g hg =>
    have hmem : ∀ p, p ∈ s.networks ++ [(g, (⟨[]⟩ : InputNetwork))] → p ∈ s.networks ∨ p = (g, ⟨[]⟩) := by
      intro p hp; simpa using hp
    have hnode : ∀ g' d n, HasNode { s with networks := s.networks ++ [(g, ⟨[]⟩)] } g' d n →
        HasNode s g' d n := by
      rintro g' d n ⟨net, hm, hn⟩
      rcases hmem _ hm with hm | e
      · exact ⟨net, hm, hn⟩
      · cases e; simp at hn
    refine ⟨uniqueNames_of_networks h.names rfl ?_ ?_ ?_, ?_, ?_⟩
    · rw [List.map_append, List.nodup_append]
      refine ⟨h.names.networks, by simp, ?_⟩
      intro a ha b hb
      simp at hb; subst hb; rintro rfl; exact hg ha
    · intro p hp
      rcases hmem _ hp with hp | rfl
      · exact h.names.nodes p hp
      · simp
    · intro g' d n hn; exact h.names.node (hnode _ _ _ hn)
    · intro g' net hm d n hn
      rcases hmem _ hm with hm | e
      · exact h.links g' net hm d n hn
      · cases e; simp at hn
    · refine ConvertersOk.mono h.convs rfl ?_
      rintro g' d ⟨n, net, hm, hn⟩
      exact ⟨n, net, List.mem_append_left _ hm, hn⟩
  | newNode g d net hg hd =>
    set f : InputNetwork → InputNetwork := fun net => ⟨net.nodes.set d ⟨[], [], [], []⟩⟩ with hf
    have hcase : ∀ g' net', (g', net') ∈ (s.updNet g f).networks →
        (g', net') ∈ s.networks ∨ (g' = g ∧ net' = f net) := by
      intro g' net' hm
      rcases mem_updNet hm with hm | ⟨rfl, net0, hm', rfl⟩
      · exact .inl hm
      · have := h.get?_network hm'
        rw [hg] at this; cases this
        exact .inr ⟨rfl, rfl⟩
    have hnode : ∀ g' d' n, HasNode (s.updNet g f) g' d' n →
        HasNode s g' d' n ∨ n = ⟨[], [], [], []⟩ := by
      rintro g' d' n ⟨net', hm, hn⟩
      rcases hcase _ _ hm with hm | ⟨rfl, rfl⟩
      · exact .inl ⟨net', hm, hn⟩
      · rcases Dict.mem_set hn with hn | e
        · exact .inl ⟨net, Dict.mem_of_get? hg, hn⟩
        · cases e; exact .inr rfl
    refine ⟨uniqueNames_of_networks h.names rfl ?_ ?_ ?_, ?_, ?_⟩
    · exact Dict.nodup_modify (d := s.networks) g f h.names.networks
    · rintro ⟨g', net'⟩ hp
      rcases hcase _ _ hp with hp | ⟨rfl, rfl⟩
      · exact h.names.nodes _ hp
      · exact Dict.nodup_set d _ (h.names.nodes _ (Dict.mem_of_get? hg))
    · intro g' d' n hn
      rcases hnode _ _ _ hn with hn | rfl
      · exact h.names.node hn
      · simp
    · intro g' net' hm d' n hn l hl
      rcases hcase _ _ hm with hm | ⟨rfl, rfl⟩
      · exact h.links g' net' hm d' n hn l hl
      · rcases Dict.mem_set hn with hn | e
        · have := h.links _ _ (Dict.mem_of_get? hg) d' n hn l hl
          have hk : (f net).nodes.keys = net.nodes.keys ++ [d] := Dict.keys_set_of_not_mem hd
          show l.dest ∈ (f net).nodes.keys
          rw [hk]; exact List.mem_append_left _ this
        · cases e; simp at hl
    · refine ConvertersOk.mono h.convs rfl ?_
      intro g' d' hn
      refine hasNode_updNet_mono ?_ h.names.networks hn
      intro net' k hk
      by_cases hdk : d ∈ net'.nodes.keys
      · show k ∈ (net'.nodes.set d _).keys
        rwa [Dict.keys_set_of_mem hdk]
      · show k ∈ (net'.nodes.set d _).keys
        rw [Dict.keys_set_of_not_mem hdk]; exact List.mem_append_left _ hk
  | node g d net n f hg hd hf =>
    set F : InputNetwork → InputNetwork := fun net => ⟨net.nodes.modify d f⟩ with hF
    have hcase : ∀ g' net', (g', net') ∈ (s.updNode g d f).networks →
        (g', net') ∈ s.networks ∨ (g' = g ∧ net' = F net) := by
      intro g' net' hm
      rcases mem_updNet hm with hm | ⟨rfl, net0, hm', rfl⟩
      · exact .inl hm
      · have := h.get?_network hm'
        rw [hg] at this; cases this
        exact .inr ⟨rfl, rfl⟩
    have hmg := Dict.mem_of_get? hg
    have hmd := Dict.mem_of_get? hd
    have hnode' : ∀ d' n', (d', n') ∈ (F net).nodes → (d', n') ∈ net.nodes ∨ n' = f n := by
      intro d' n' hn
      rcases Dict.mem_modify hn with hn | ⟨v, hv, e⟩
      · exact .inl hn
      · have := h.get?_node hmg hv
        rw [hd] at this; cases this
        cases e; exact .inr rfl
    have hnames := hf.names (h.names.consumptions _ _ _ ⟨net, hmg, hmd⟩)
      (h.names.productions _ _ _ ⟨net, hmg, hmd⟩) (h.names.storages _ _ _ ⟨net, hmg, hmd⟩)
      (h.names.links _ _ _ ⟨net, hmg, hmd⟩)
    refine ⟨uniqueNames_of_networks h.names rfl ?_ ?_ ?_, ?_, ?_⟩
    · exact Dict.nodup_modify (d := s.networks) g F h.names.networks
    · rintro ⟨g', net'⟩ hp
      rcases hcase _ _ hp with hp | ⟨rfl, rfl⟩
      · exact h.names.nodes _ hp
      · exact Dict.nodup_modify d _ (h.names.nodes _ hmg)
    · rintro g' d' n' ⟨net', hm, hn⟩
      rcases hcase _ _ hm with hm | ⟨rfl, rfl⟩
      · exact h.names.node ⟨net', hm, hn⟩
      · rcases hnode' _ _ hn with hn | rfl
        · exact h.names.node ⟨net, hmg, hn⟩
        · exact hnames
    · intro g' net' hm d' n' hn l hl
      rcases hcase _ _ hm with hm | ⟨rfl, rfl⟩
      · exact h.links g' net' hm d' n' hn l hl
      · have hk : (F net).nodes.keys = net.nodes.keys := Dict.keys_modify _ _ _
        show l.dest ∈ (F net).nodes.keys
        rw [hk]
        rcases hnode' _ _ hn with hn | rfl
        · exact h.links _ _ hmg d' n' hn l hl
        · exact hf.links (h.links _ _ hmg d n hmd) l hl
    · refine ConvertersOk.mono h.convs rfl ?_
      intro g' d' hn
      refine hasNode_updNet_mono ?_ h.names.networks hn
      intro net' k hk
      show k ∈ (net'.nodes.modify d f).keys
      rwa [Dict.keys_modify]
  | newConv name hname =>
    have hmem : ∀ p, p ∈ s.converters ++ [(name, (⟨name, [], "", "", .int0, .int0⟩ : Converter))] →
        p ∈ s.converters ∨ p = (name, ⟨name, [], "", "", .int0, .int0⟩) := by
      intro p hp; simpa using hp
    refine ⟨⟨h.names.networks, h.names.nodes, h.names.consumptions, h.names.productions,
      h.names.storages, h.names.links, ?_, ?_⟩, h.links, ?_⟩
    · rw [List.map_append, List.nodup_append]
      refine ⟨h.names.converters, by simp, ?_⟩
      intro a ha b hb
      simp at hb; subst hb; rintro rfl; exact hname ha
    · intro p hp
      rcases hmem _ hp with hp | rfl
      · exact h.names.sources p hp
      · simp
    · intro p hp
      rcases hmem _ hp with hp | rfl
      · have := h.convs p hp; exact ⟨this.name, this.sources, this.dest⟩
      · exact ⟨rfl, by simp, .inl ⟨rfl, rfl, rfl, rfl⟩⟩
  | convSrc name g d c v hc hk hn hv =>
    have hm := Dict.mem_of_get? hc
    have ok := h.convs _ hm
    refine studyInv_updConv h hc ?_ ⟨ok.name, ?_, ok.dest⟩
    · exact Dict.nodup_set _ _ (h.names.sources _ hm)
    · intro k hk'
      have : k ∈ (c.srcRatios.set [g, d] v).keys := hk'
      rw [Dict.keys_set_of_not_mem hk] at this
      simp only [List.mem_append, List.mem_singleton] at this
      rcases this with this | rfl
      · exact ok.sources k this
      · obtain ⟨n, hn⟩ := hn
        exact ⟨g, d, n, rfl, hn⟩
  | convDest name g d c hc hd hn =>
    have hm := Dict.mem_of_get? hc
    have ok := h.convs _ hm
    rw [Study.withDest_eq]
    exact studyInv_updConv h hc (h.names.sources _ hm) ⟨ok.name, ok.sources, .inr hn⟩
  | convCost name c v hc hn hv =>
    have hm := Dict.mem_of_get? hc
    have ok := h.convs _ hm
    exact studyInv_updConv h hc (h.names.sources _ hm) ⟨ok.name, ok.sources, .inr hn⟩
  | convMax name c v hc hn hv =>
    have hm := Dict.mem_of_get? hc
    have ok := h.convs _ hm
    exact studyInv_updConv h hc (h.names.sources _ hm) ⟨ok.name, ok.sources, .inr hn⟩

theorem StudyInv.transStar {V : NumVal → Prop} {s s' : Study} (h : StudyInv s)
    (ht : TransStar V s s') : StudyInv s' := by
  induction ht with
  | refl => exact h
  | tail _ _ _ hs ih => exact ih.trans hs

/-! ### Extension -/

theorem Spec.DictExt.refl {K V : Type} {R : V → V → Prop} (hR : ∀ v, R v v) (d : Dict K V) :
    DictExt R d d :=
  ⟨d, [], by simp, List.forall₂_same.mpr (fun _ _ => ⟨rfl, hR _⟩)⟩

theorem Spec.DictExt.trans {K V : Type} {R : V → V → Prop} (hR : ∀ a b c, R a b → R b c → R a c)
    {d d' d'' : Dict K V} (h : DictExt R d d') (h' : DictExt R d' d'') : DictExt R d d'' := by
  obtain ⟨f1, b1, rfl, h1⟩ := h
  obtain ⟨f2, b2, rfl, h2⟩ := h'
  obtain ⟨f3, b3, h3, rfl⟩ : ∃ f3 b3, List.Forall₂ (fun p q => p.1 = q.1 ∧ R p.2 q.2) f1 f3 ∧
      f2 = f3 ++ b3 := by
    clear h1
    induction f1 generalizing f2 with
    | nil => exact ⟨[], f2, .nil, rfl⟩
    | cons x f1 ih =>
      cases h2 with
      | cons hx ht =>
        obtain ⟨f3, b3, h3, rfl⟩ := ih _ ht
        exact ⟨_ :: f3, b3, .cons hx h3, rfl⟩
  refine ⟨f3, b3 ++ b2, by simp, ?_⟩
  clear h2
  induction h1 generalizing f3 with
  | nil => cases h3; exact .nil
  | cons hab _ ih =>
    cases h3 with
    | cons hbc ht => exact .cons ⟨hab.1.trans hbc.1, hR _ _ _ hab.2 hbc.2⟩ (ih _ ht)

theorem Spec.DictExt.append {K V : Type} {R : V → V → Prop} (hR : ∀ v, R v v) (d b : Dict K V) :
    DictExt R d (d ++ b) :=
  ⟨d, b, rfl, List.forall₂_same.mpr (fun _ _ => ⟨rfl, hR _⟩)⟩

theorem Spec.DictExt.modify {K V : Type} [DecidableEq K] {R : V → V → Prop} (hR : ∀ v, R v v)
    (d : Dict K V) (k : K) (f : V → V) (hf : ∀ v, d.get? k = some v → R v (f v)) :
    DictExt R d (d.modify k f) := by
  refine ⟨d.modify k f, [], by simp, ?_⟩
  induction d with
  | nil => exact .nil
  | cons p d ih =>
    obtain ⟨k', v'⟩ := p
    by_cases hk : k' = k
    · subst hk
      simp only [Dict.modify, if_true]
      exact .cons ⟨rfl, hf _ (by simp [Dict.get?])⟩ (List.forall₂_same.mpr (fun _ _ => ⟨rfl, hR _⟩))
    · simp only [Dict.modify, hk, if_false]
      refine .cons ⟨rfl, hR _⟩ (ih ?_)
      intro v hv
      exact hf v (by simp [Dict.get?, hk, hv])

theorem Spec.NodeExt.refl (n : InputNode) : NodeExt n n :=
  ⟨List.prefix_refl _, List.prefix_refl _, List.prefix_refl _, List.prefix_refl _⟩

theorem Spec.NodeExt.trans {a b c : InputNode} (h : NodeExt a b) (h' : NodeExt b c) : NodeExt a c :=
  ⟨h.1.trans h'.1, h.2.trans h'.2, h.3.trans h'.3, h.4.trans h'.4⟩

theorem Spec.ConvExt.refl (n : Converter) : ConvExt n n := ⟨rfl, List.prefix_refl _⟩

theorem Spec.ConvExt.trans {a b c : Converter} (h : ConvExt a b) (h' : ConvExt b c) : ConvExt a c :=
  ⟨h'.1.trans h.1, h.2.trans h'.2⟩

theorem Spec.StudyExt.refl (s : Study) : StudyExt s s :=
  ⟨rfl, rfl, rfl, DictExt.refl (fun a : InputNetwork => DictExt.refl NodeExt.refl a.nodes) s.networks,
    DictExt.refl ConvExt.refl _⟩

theorem Spec.StudyExt.trans {a b c : Study} (h : StudyExt a b) (h' : StudyExt b c) : StudyExt a c :=
  ⟨h'.1.trans h.1, h'.2.trans h.2, h'.3.trans h.3,
    DictExt.trans (R := fun a b : InputNetwork => DictExt NodeExt a.nodes b.nodes)
      (fun _ _ _ => DictExt.trans (R := NodeExt) (fun _ _ _ => NodeExt.trans)) h.4 h'.4,
    DictExt.trans (R := ConvExt) (fun _ _ _ => ConvExt.trans) h.5 h'.5⟩

theorem NodeStep.ext {V : NumVal → Prop} {ks : List String} {n n' : InputNode}
    (h : NodeStep V ks n n') : NodeExt n n' := by
  cases h <;> exact ⟨by simp, by simp, by simp, by simp⟩

theorem Trans.ext {V : NumVal → Prop} {s s' : Study} (ht : Trans V s s') : StudyExt s s' := by
  have hN := fun (a : InputNetwork) => DictExt.refl NodeExt.refl a.nodes
  cases ht with
  | newNet g hg => exact ⟨rfl, rfl, rfl, DictExt.append hN _ _, DictExt.refl ConvExt.refl _⟩
  | newNode g d net hg hd =>
    refine ⟨rfl, rfl, rfl, DictExt.modify hN _ _ _ ?_, DictExt.refl ConvExt.refl _⟩
    intro v hv
    rw [hg] at hv; cases hv
    simp only [Dict.set_of_not_mem hd]
    exact DictExt.append NodeExt.refl _ _
  | node g d net n f hg hd hf =>
    refine ⟨rfl, rfl, rfl, DictExt.modify hN _ _ _ ?_, DictExt.refl ConvExt.refl _⟩
    intro v hv
    rw [hg] at hv; cases hv
    refine DictExt.modify NodeExt.refl _ _ _ ?_
    intro v hv
    rw [hd] at hv; cases hv
    exact hf.ext
  | newConv name hn =>
    exact ⟨rfl, rfl, rfl, DictExt.refl hN _, DictExt.append ConvExt.refl _ _⟩
  | convSrc name g d c v hc hk hn hv =>
    refine ⟨rfl, rfl, rfl, DictExt.refl hN _, DictExt.modify ConvExt.refl _ _ _ ?_⟩
    intro c' hc'
    rw [hc] at hc'; cases hc'
    exact ⟨rfl, by simp [Dict.set_of_not_mem hk]⟩
  | convDest name g d c hc hd hn =>
    rw [Study.withDest_eq]
    exact ⟨rfl, rfl, rfl, DictExt.refl hN _,
      DictExt.modify ConvExt.refl _ _ _ (fun _ _ => ⟨rfl, List.prefix_refl _⟩)⟩
  | convCost name c v hc hn hv =>
    exact ⟨rfl, rfl, rfl, DictExt.refl hN _,
      DictExt.modify ConvExt.refl _ _ _ (fun _ _ => ⟨rfl, List.prefix_refl _⟩)⟩
  | convMax name c v hc hn hv =>
    exact ⟨rfl, rfl, rfl, DictExt.refl hN _,
      DictExt.modify ConvExt.refl _ _ _ (fun _ _ => ⟨rfl, List.prefix_refl _⟩)⟩

theorem TransStar.ext {V : NumVal → Prop} {s s' : Study} (ht : TransStar V s s') :
    StudyExt s s' := by
  induction ht with
  | refl => exact StudyExt.refl _
  | tail _ _ _ hs ih => exact ih.trans hs.ext

/-! ### A property of all series -/

theorem Spec.StudyAll.trans {V : NumVal → Prop} {s s' : Study} (hi : StudyInv s)
    (h : StudyAll V s) (ht : Trans V s s') : StudyAll V s' := by
  cases ht with
  | newNet g hg =>
    refine ⟨?_, h.2⟩
    rintro g' d n ⟨net, hm, hn⟩
    rcases List.mem_append.mp hm with hm | e
    · exact h.1 g' d n ⟨net, hm, hn⟩
    · simp at e; rw [e.2] at hn; simp at hn
  | newNode g d net hg hd =>
    refine ⟨?_, h.2⟩
    rintro g' d' n ⟨net', hm, hn⟩
    rcases mem_updNet hm with hm | ⟨rfl, net0, hm', rfl⟩
    · exact h.1 g' d' n ⟨net', hm, hn⟩
    · rcases Dict.mem_set hn with hn | e
      · exact h.1 g' d' n ⟨net0, hm', hn⟩
      · cases e
        exact ⟨by simp, by simp, by simp, by simp⟩
  | node g d net n f hg hd hf =>
    refine ⟨?_, h.2⟩
    rintro g' d' n' ⟨net', hm, hn⟩
    rcases mem_updNet hm with hm | ⟨rfl, net0, hm', rfl⟩
    · exact h.1 g' d' n' ⟨net', hm, hn⟩
    · have e := hi.get?_network hm'
      rw [hg] at e; cases e
      have hm := hm'
      rcases Dict.mem_modify hn with hn | ⟨v, hv, e⟩
      · exact h.1 g' d' n' ⟨net, hm, hn⟩
      · have e' := hi.get?_node hm hv
        rw [hd] at e'; cases e'
        cases e
        have old := h.1 g' d n ⟨net, hm, hv⟩
        generalize f n = n' at hf
        cases hf with
        | cons c _ hq hc =>
          refine ⟨?_, old.2, old.3, old.4⟩
          intro x hx
          simp only [List.mem_append, List.mem_singleton] at hx
          rcases hx with hx | rfl
          · exact old.1 x hx
          · exact ⟨hq, hc⟩
        | prod c _ hq hc =>
          refine ⟨old.1, ?_, old.3, old.4⟩
          intro x hx
          simp only [List.mem_append, List.mem_singleton] at hx
          rcases hx with hx | rfl
          · exact old.2 x hx
          · exact ⟨hq, hc⟩
        | stor c _ h1 h2 h3 h4 h5 =>
          refine ⟨old.1, old.2, ?_, old.4⟩
          intro x hx
          simp only [List.mem_append, List.mem_singleton] at hx
          rcases hx with hx | rfl
          · exact old.3 x hx
          · exact ⟨h1, h2, h3, h4, h5⟩
        | link c _ _ hq hc =>
          refine ⟨old.1, old.2, old.3, ?_⟩
          intro x hx
          simp only [List.mem_append, List.mem_singleton] at hx
          rcases hx with hx | rfl
          · exact old.4 x hx
          · exact ⟨hq, hc⟩
  | newConv name hn =>
    refine ⟨h.1, ?_⟩
    intro p hp
    rcases List.mem_append.mp hp with hp | e
    · exact h.2 p hp
    · simp at e; subst e
      exact ⟨by simp, by simp, by simp⟩
  | convSrc name g d c v hc hk hn hv =>
    refine ⟨h.1, ?_⟩
    intro p hp
    rcases Dict.mem_modify hp with hp | ⟨c', hc', rfl⟩
    · exact h.2 p hp
    · have old := h.2 _ hc'
      refine ⟨?_, old.2⟩
      intro q hq
      rcases Dict.mem_set hq with hq | rfl
      · exact old.1 q hq
      · exact hv
  | convDest name g d c hc hd hn =>
    rw [Study.withDest_eq]
    refine ⟨h.1, ?_⟩
    intro p hp
    rcases Dict.mem_modify hp with hp | ⟨c', hc', rfl⟩
    · exact h.2 p hp
    · have := h.2 _ hc'
      exact ⟨this.1, this.2.1, this.2.2⟩
  | convCost name c v hc hn hv =>
    refine ⟨h.1, ?_⟩
    intro p hp
    rcases Dict.mem_modify hp with hp | ⟨c', hc', rfl⟩
    · exact h.2 p hp
    · have old := h.2 _ hc'
      refine ⟨old.1, ?_, old.2.2⟩
      intro w hw; cases hw; exact hv
  | convMax name c v hc hn hv =>
    refine ⟨h.1, ?_⟩
    intro p hp
    rcases Dict.mem_modify hp with hp | ⟨c', hc', rfl⟩
    · exact h.2 p hp
    · have old := h.2 _ hc'
      refine ⟨old.1, old.2.1, ?_⟩
      intro w hw; cases hw; exact hv

theorem Spec.StudyAll.transStar {V : NumVal → Prop} {s s' : Study} (hi : StudyInv s)
    (h : StudyAll V s) (ht : TransStar V s s') : StudyAll V s' := by
  have : StudyInv s' ∧ StudyAll V s' := by
    induction ht with
    | refl => exact ⟨hi, h⟩
    | tail _ s'' _ hs ih => exact ⟨ih.1.trans hs, StudyAll.trans ih.1 ih.2 hs⟩
  exact this.2

end Hadar
