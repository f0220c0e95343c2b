import Verif.Proofs.StudyProps

/-!
# Properties C05-C13: building a study

`World.start h n` is a fresh study of horizon `h` with `n` scenarios; `World.run` executes any list
of API calls, going on after exceptions.
-/

namespace Hadar.Props

open Hadar Hadar.Spec World

/-! ### C06, C07, C10: invariants -/

/-- **C06.** Names stay unique, whatever the calls. -/
theorem C06_unique_names (h n : ℕ) (cs : List Call) : UniqueNames ((start h n).run cs).study :=
  (reachable_inv h n cs).study.names

/-- **C07.** Links always end (and start) on a node of their network, whatever the calls. -/
theorem C07_links_exist (h n : ℕ) (cs : List Call) : LinksExist ((start h n).run cs).study :=
  (reachable_inv h n cs).study.links

/-- **C10.** Every stored series can be read over the whole study and flattens to its size. -/
theorem C10_sized (h n : ℕ) (cs : List Call) (hc : ∀ c ∈ cs, RawCall c) :
    AllUsable ((start h n).run cs).study ∧
      ((start h n).run cs).study.horizon = h ∧ ((start h n).run cs).study.nbScn = n := by
  refine ⟨run_usable (worldInv_start h n) ?_ cs hc, ?_, ?_⟩
  · refine ⟨?_, ?_⟩
    · rintro g d n ⟨net, hm, _⟩; simp [start, Study.init] at hm
    · intro p hp; simp [start, Study.init] at hp
  · exact (run_ext (worldInv_start h n) cs).horizon
  · exact (run_ext (worldInv_start h n) cs).nbScn

/-! ### C09: nothing is lost; an accepted call adds exactly what it says -/

/-- **C09** (first half). What has been added stays, with the same data and rank, whatever calls
follow. -/
theorem C09_kept (h n : ℕ) (cs cs' : List Call) :
    StudyExt ((start h n).run cs).study ((start h n).run (cs ++ cs')).study := by
  have := run_ext (reachable_inv h n cs) cs'
  rwa [show ((start h n).run cs).run cs' = (start h n).run (cs ++ cs') by
    simp [World.run, List.foldl_append]] at this

/-- **C09** (second half): `node.consumption(...)`. -/
theorem C09_consumption (w w' : World) (ref : ℕ) (name : String) (cost q : Raw) (hd : Handle)
    (hq : IsRaw q) (hc : IsRaw cost) (h : step (.nodeConsumption ref name cost q) w = (.ok hd, w')) :
    ∃ g d n qv cv, w.heap[ref]? = some ⟨some g, some d⟩ ∧
      OnlyNodeChanged w.study w'.study g d n
        { n with consumptions := n.consumptions ++ [⟨cv, qv, name⟩] } ∧
      Stores w.study.horizon w.study.nbScn q qv ∧ Stores w.study.horizon w.study.nbScn cost cv ∧
      w'.heap = w.heap ∧ hd = .node ref := by
  rcases withSel_run ref (fun g d => Study.addConsumption g d name cost q) w with ⟨e, he, _⟩ | ⟨g, d, hg, he⟩
  · have := he.symm.trans h; cases this
  · have := he.symm.trans h
    rcases Study.addConsumption_run g d name cost q w.study with ⟨e, hr⟩ | ⟨net, n, qv, cv, h1, h2, h3, h4, h5, h6, hr⟩
    · simp only [hr] at this; cases this
    · simp only [hr] at this
      cases this
      exact ⟨g, d, n, qv, cv, hg, onlyNodeChanged_updNode _ h1 h2, stores_of_create hq h4,
        stores_of_create hc h6, rfl, rfl⟩

/-- **C09** (second half): `node.production(...)`. -/
theorem C09_production (w w' : World) (ref : ℕ) (name : String) (cost q : Raw) (hd : Handle)
    (hq : IsRaw q) (hc : IsRaw cost) (h : step (.nodeProduction ref name cost q) w = (.ok hd, w')) :
    ∃ g d n qv cv, w.heap[ref]? = some ⟨some g, some d⟩ ∧
      OnlyNodeChanged w.study w'.study g d n
        { n with productions := n.productions ++ [⟨name, cv, qv⟩] } ∧
      Stores w.study.horizon w.study.nbScn q qv ∧ Stores w.study.horizon w.study.nbScn cost cv ∧
      w'.heap = w.heap ∧ hd = .node ref := by
  rcases withSel_run ref (fun g d => Study.addProduction g d name cost q) w with ⟨e, he, _⟩ | ⟨g, d, hg, he⟩
  · have := he.symm.trans h; cases this
  · have := he.symm.trans h
    rcases Study.addProduction_run g d name cost q w.study with ⟨e, hr⟩ | ⟨net, n, qv, cv, h1, h2, h3, h4, h5, h6, hr⟩
    · simp only [hr] at this; cases this
    · simp only [hr] at this
      cases this
      exact ⟨g, d, n, qv, cv, hg, onlyNodeChanged_updNode _ h1 h2, stores_of_create hq h4,
        stores_of_create hc h6, rfl, rfl⟩

/-- **C09** (second half): `node.storage(...)`. -/
theorem C09_storage (w w' : World) (ref : ℕ) (a : Study.StorageArgs) (hd : Handle)
    (hr : RawCall (.nodeStorage ref a)) (h : step (.nodeStorage ref a) w = (.ok hd, w')) :
    ∃ g d n st, w.heap[ref]? = some ⟨some g, some d⟩ ∧
      OnlyNodeChanged w.study w'.study g d n { n with storages := n.storages ++ [st] } ∧
      st.name = a.name ∧ st.initCapacity = a.initCapacity ∧
      Stores w.study.horizon w.study.nbScn a.capacity st.capacity ∧
      Stores w.study.horizon w.study.nbScn a.flowIn st.flowIn ∧
      Stores w.study.horizon w.study.nbScn a.flowOut st.flowOut ∧
      Stores w.study.horizon w.study.nbScn a.cost st.cost ∧
      Stores w.study.horizon w.study.nbScn a.eff st.eff ∧
      w'.heap = w.heap ∧ hd = .node ref := by
  obtain ⟨r1, r2, r3, r4, r5⟩ := hr
  rcases withSel_run ref (fun g d => Study.addStorage g d a) w with ⟨e, he, _⟩ | ⟨g, d, hg, he⟩
  · have := he.symm.trans h; cases this
  · have := he.symm.trans h
    rcases Study.addStorage_run g d a w.study with ⟨e, hr⟩ |
      ⟨net, n, cap, fi, fo, cv, ev, h1, h2, h3, h4, h5, h6, h7, h8, h9, h10, h11, h12, h13, h14, hr⟩
    · simp only [hr] at this; cases this
    · simp only [hr] at this
      cases this
      exact ⟨g, d, n, ⟨a.name, cap, fi, fo, cv, a.initCapacity, ev⟩, hg,
        onlyNodeChanged_updNode _ h1 h2, rfl, rfl, stores_of_create r1 h8, stores_of_create r2 h4,
        stores_of_create r3 h5, stores_of_create r4 h14, stores_of_create r5 h11, rfl, rfl⟩

/-- what an accepted link adds -/
private theorem link_frame {s : Study} {g src dest : String} {cost q : Raw} (hq : IsRaw q)
    (hc : IsRaw cost) (hok : (Study.addLink g src dest cost q s).1 = .ok ()) :
    ∃ n qv cv, OnlyNodeChanged s (Study.addLink g src dest cost q s).2 g src n
        { n with links := n.links ++ [⟨dest, qv, cv⟩] } ∧
      (∃ n', HasNode s g dest n') ∧
      Stores s.horizon s.nbScn q qv ∧ Stores s.horizon s.nbScn cost cv := by
  rcases Study.addLink_run g src dest cost q s with ⟨e, hr⟩ | ⟨net, n, qv, cv, h1, h2, h3, h4, h5, h6, h7, hr⟩
  · rw [hr] at hok; cases hok
  · rw [hr]
    exact ⟨n, qv, cv, onlyNodeChanged_updNode _ h1 h2, hasNode_of_keys h1 h3,
      stores_of_create hq h5, stores_of_create hc h7⟩

/-- **C09** (second half): `network.link(...)`, `node.link(...)` and `study.add_link(...)`. -/
theorem C09_link (w w' : World) (c : Call) (src dest : String) (cost q : Raw) (hd : Handle)
    (hcall : (∃ g, c = .studyAddLink g src dest cost q) ∨ (∃ r, c = .netLink r src dest cost q) ∨
      (∃ r, c = .nodeLink r src dest cost q))
    (hq : IsRaw q) (hc : IsRaw cost) (h : step c w = (.ok hd, w')) :
    ∃ g n qv cv, OnlyNodeChanged w.study w'.study g src n
        { n with links := n.links ++ [⟨dest, qv, cv⟩] } ∧
      (∀ g', c = .studyAddLink g' src dest cost q → g = g') ∧
      (∀ r, c = .netLink r src dest cost q ∨ c = .nodeLink r src dest cost q →
        ∃ d, w.heap[r]? = some ⟨some g, d⟩) ∧
      (∃ n', HasNode w.study g dest n') ∧
      Stores w.study.horizon w.study.nbScn q qv ∧ Stores w.study.horizon w.study.nbScn cost cv ∧
      w'.heap = w.heap := by
  have key : ∀ r, link r src dest cost q w = (.ok hd, w') → ∃ g d, w.heap[r]? = some ⟨some g, d⟩ ∧
      ∃ n qv cv, OnlyNodeChanged w.study w'.study g src n
        { n with links := n.links ++ [⟨dest, qv, cv⟩] } ∧
      (∃ n', HasNode w.study g dest n') ∧
      Stores w.study.horizon w.study.nbScn q qv ∧ Stores w.study.horizon w.study.nbScn cost cv ∧
      w'.heap = w.heap := by
    intro r h
    rcases link_run r src dest cost q w with ⟨e, he, _⟩ | ⟨g, d, hg, he⟩
    · have := he.symm.trans h; cases this
    · have := he.symm.trans h
      cases hok : (Study.addLink g src dest cost q w.study).1 with
      | error e => simp only [hok] at this; cases this
      | ok u =>
        obtain ⟨n, qv, cv, a1, a2, a3, a4⟩ := link_frame hq hc hok
        rw [hok] at this
        cases this
        exact ⟨g, d, hg, n, qv, cv, a1, a2, a3, a4, rfl⟩
  rcases hcall with ⟨g, rfl⟩ | ⟨r, rfl⟩ | ⟨r, rfl⟩
  · simp only [step, onStudy, PyM.bind_run] at h
    cases hok : Study.addLink g src dest cost q w.study with
    | mk r s =>
      rw [hok] at h
      cases r with
      | error e => cases h
      | ok u =>
        obtain ⟨n, qv, cv, a1, a2, a3, a4⟩ := link_frame (s := w.study) hq hc (by rw [hok])
        rw [hok] at a1
        cases h
        refine ⟨g, n, qv, cv, a1, ?_, ?_, a2, a3, a4, rfl⟩
        · intro g' e; cases e; rfl
        · intro r e; rcases e with e | e <;> cases e
  · obtain ⟨g, d, hg, n, qv, cv, a1, a2, a3, a4, a5⟩ := key r h
    refine ⟨g, n, qv, cv, a1, (fun g' e => by cases e), ?_, a2, a3, a4, a5⟩
    intro r' e; rcases e with e | e <;> cases e; exact ⟨d, hg⟩
  · obtain ⟨g, d, hg, n, qv, cv, a1, a2, a3, a4, a5⟩ := key r h
    refine ⟨g, n, qv, cv, a1, (fun g' e => by cases e), ?_, a2, a3, a4, a5⟩
    intro r' e; rcases e with e | e <;> cases e; exact ⟨d, hg⟩

/-- **C09** (second half): `node.to_converter(...)`. The converter is created, empty, when it does
not exist yet; then exactly one source is added at the end. -/
theorem C09_converter_source (w w' : World) (ref : ℕ) (name : String) (r : Raw) (hd : Handle)
    (hr : IsRaw r) (h : step (.nodeToConverter ref name r) w = (.ok hd, w')) :
    ∃ g d c rv s1, w.heap[ref]? = some ⟨some g, some d⟩ ∧
      (s1 = w.study ∨ (name ∉ w.study.converters.map Prod.fst ∧ s1 = { w.study with converters :=
        w.study.converters ++ [(name, ⟨name, [], "", "", .int0, .int0⟩)] })) ∧
      OnlyConverterChanged s1 w'.study name c { c with srcRatios := c.srcRatios ++ [([g, d], rv)] } ∧
      Stores w.study.horizon w.study.nbScn r rv ∧ w'.heap = w.heap ∧ hd = .node ref := by
  rcases toConverter_run ref name r w with ⟨e, he⟩ | ⟨g, d, hg, he⟩
  · have := he.symm.trans h; cases this
  · have := he.symm.trans h
    rcases Study.addConverterSrc_run name g d r (Study.addConverter name w.study).2 with ⟨e, hrun⟩ |
      ⟨c, rv, h1, h2, h3, hrun⟩
    · simp only [hrun] at this; cases this
    · simp only [hrun] at this
      cases this
      rw [addConverter_factory] at h3
      refine ⟨g, d, c, rv, (Study.addConverter name w.study).2, hg, ?_, ?_, stores_of_create hr h3,
        rfl, rfl⟩
      · rw [Study.addConverter_run]
        by_cases hk : name ∈ w.study.converters.keys
        · left; simp only [hk, if_true]
        · right; exact ⟨hk, by simp only [hk, if_false]⟩
      · have := onlyConverterChanged_updConv
          (fun c => { c with srcRatios := c.srcRatios.set [g, d] rv }) h1
        simpa only [Dict.set_of_not_mem h2] using this

/-! ### C11 -/

/-- **C11** for networks: `study.network(name)` (and `.network(name)` on any handle). -/
theorem C11_network (h n : ℕ) (cs : List Call) (name : String) (w : World)
    (hw : w = (start h n).run cs) :
    ∃ hd w', step (.studyNetwork name) w = (.ok hd, w') ∧
      (name ∈ w.study.networks.map Prod.fst → w'.study = w.study) ∧
      (name ∉ w.study.networks.map Prod.fst →
        w'.study = { w.study with networks := w.study.networks ++ [(name, ⟨[]⟩)] }) ∧
      ∀ hd', (step (.studyNetwork name) w').1 = .ok hd' →
        (step (.studyNetwork name) w').2.study = w'.study := by
  refine ⟨_, _, network_run name w, ?_, ?_, ?_⟩
  · intro hk
    have hk : name ∈ w.study.networks.keys := hk
    simp only [Study.addNetwork_run, hk, if_true]
  · intro hk
    have hk : name ∉ w.study.networks.keys := hk
    simp only [Study.addNetwork_run, hk, if_false]
  · intro hd' _
    rw [show ∀ w, step (.studyNetwork name) w = network name w from fun _ => rfl, network_run]
    simp only [Study.addNetwork_run]
    by_cases hk : name ∈ w.study.networks.keys
    · simp [-List.mem_map, hk]
    · have : name ∈ Dict.keys (w.study.networks ++ [(name, (⟨[]⟩ : InputNetwork))]) := by
        simp [Dict.keys]
      simp only [hk, if_false, this, if_true]

/-- **C11** for nodes: `network.node(name)` on a handle of network `g`. -/
theorem C11_node (h n : ℕ) (cs : List Call) (w : World) (hw : w = (start h n).run cs) (ref : ℕ)
    (g : String) (d : Option String) (hg : w.heap[ref]? = some ⟨some g, d⟩) (name : String) :
    ∃ w', step (.netNode ref name) w = (.ok (.node ref), w') ∧
      w'.heap[ref]? = some ⟨some g, some name⟩ ∧
      ((∃ nd, HasNode w.study g name nd) → w'.study = w.study) ∧
      (¬ (∃ nd, HasNode w.study g name nd) → OnlyNodeAdded w.study w'.study g name) := by
  have hi : WorldInv w := hw ▸ reachable_inv h n cs
  rcases node_run ref name w with ⟨h1, _⟩ | ⟨d', h1, _⟩ | ⟨g', d', h1, hrun⟩
  · rw [hg] at h1; cases h1
  · rw [hg] at h1; cases h1
  · rw [hg] at h1; cases h1
    obtain ⟨⟨net, hnet⟩, _⟩ := selOk_getElem hi hg g rfl
    have hget := hi.study.get?_network hnet
    rcases Study.addNode_run g name w.study with ⟨hnone, _⟩ | ⟨net', hget', he⟩
    · rw [hget] at hnone; cases hnone
    · rw [hget] at hget'; cases hget'
      have hheap : (setNode w.heap ref name)[ref]? = some ⟨some g, some name⟩ := by
        simp [setNode, List.getElem?_modify, hg]
      by_cases hk : name ∈ net.nodes.keys
      · simp only [hk, if_true] at he
        refine ⟨_, by rw [show step (.netNode ref name) w = _ from hrun, he]; rfl, hheap, ?_, ?_⟩
        · intro _; rfl
        · intro hno; exact absurd (hasNode_of_keys hget hk) hno
      · simp only [hk, if_false] at he
        refine ⟨_, by rw [show step (.netNode ref name) w = _ from hrun, he]; rfl, hheap, ?_, ?_⟩
        · rintro ⟨nd, net', hm, hn⟩
          have := hi.study.get?_network hm
          rw [hget] at this; cases this
          exact absurd (List.mem_map.mpr ⟨_, hn, rfl⟩) hk
        · intro _
          obtain ⟨pre, post, e3, e4⟩ := Dict.modify_split
            (fun net => (⟨net.nodes.set name ⟨[], [], [], []⟩⟩ : InputNetwork)) hget
          refine ⟨pre, post, net.nodes, e3, ?_⟩
          simp only [Study.updNet, e4, Dict.set_of_not_mem hk]

/-! ### C05: the sign of quantities -/

private theorem accept_iff (h n : ℕ) (s : Study) (hh : s.horizon = h) (hn : s.nbScn = n) (r : Raw) :
    (∃ v, s.factory.create r = .ok v) ↔ Accepts h n r := by
  subst hh hn; exact C03_accepts_iff _ _ r

/-- **C05** for consumptions, as far as it holds: refused exactly when *all* the values are negative
(for non-empty studies), everything else being fine. Missing: a series with some negative values
should be refused too; it is not, see `C05_refuted`. -/
theorem C05_consumption_partial (w : World) (hi : WorldInv w) (hh : 0 < w.study.horizon)
    (hn : 0 < w.study.nbScn) (ref : ℕ) (g d name : String) (nd : InputNode) (cost q : Raw)
    (hq : IsRaw q) (hg : w.heap[ref]? = some ⟨some g, some d⟩) (hnd : HasNode w.study g d nd) :
    ((∃ hd, (step (.nodeConsumption ref name cost q) w).1 = .ok hd) ↔
      name ∉ nd.consumptions.map (·.name) ∧
      Accepts w.study.horizon w.study.nbScn q ∧
      ¬ Everywhere w.study.horizon w.study.nbScn q (· < 0) ∧
      Accepts w.study.horizon w.study.nbScn cost) ∧
    (name ∉ nd.consumptions.map (·.name) → Accepts w.study.horizon w.study.nbScn q →
      Everywhere w.study.horizon w.study.nbScn q (· < 0) →
      (step (.nodeConsumption ref name cost q) w).1 = .error .valueError) := by
  obtain ⟨net, hm, hmn⟩ := hnd
  have h1 := hi.study.get?_network hm
  have h2 := hi.study.get?_node hm hmn
  rcases withSel_run ref (fun g d => Study.addConsumption g d name cost q) w with ⟨e, _, hno⟩ | ⟨g', d', hg', he⟩
  · exact absurd hg (hno g d)
  · rw [hg] at hg'; cases hg'
    rw [show step (.nodeConsumption ref name cost q) w = _ from he]
    have hA := fun r => accept_iff _ _ w.study rfl rfl r
    refine ⟨⟨?_, ?_⟩, ?_⟩
    · rintro ⟨hd, hok⟩
      rcases Study.addConsumption_run g d name cost q w.study with ⟨e, hr⟩ | ⟨net', n', qv, cv, a1, a2, a3, a4, a5, a6, hr⟩
      · simp [hr, Except.map] at hok
      · rw [h1] at a1; cases a1
        rw [h2] at a2; cases a2
        refine ⟨a3, (hA q).mp ⟨_, a4⟩, ?_, (hA cost).mp ⟨_, a6⟩⟩
        intro hneg
        rw [(Factory.lt_iff hq a4 hh hn 0).mpr hneg] at a5; cases a5
    · rintro ⟨a3, aq, aneg, ac⟩
      obtain ⟨qv, a4⟩ := (hA q).mpr aq
      obtain ⟨cv, a6⟩ := (hA cost).mpr ac
      have a5 : qv.lt 0 = false := by
        cases e : qv.lt 0 with
        | false => rfl
        | true => exact absurd ((Factory.lt_iff hq a4 hh hn 0).mp e) aneg
      exact ⟨_, by rw [(Study.addConsumption_ok h1 h2 a3 a4).2 a5 a6]; rfl⟩
    · intro a3 aq aneg
      obtain ⟨qv, a4⟩ := (hA q).mpr aq
      rw [(Study.addConsumption_ok (cv := qv) h1 h2 a3 a4).1 ((Factory.lt_iff hq a4 hh hn 0).mpr aneg)]
      rfl

/-- **C05** for productions, see `C05_consumption_partial`. -/
theorem C05_production_partial (w : World) (hi : WorldInv w) (hh : 0 < w.study.horizon)
    (hn : 0 < w.study.nbScn) (ref : ℕ) (g d name : String) (nd : InputNode) (cost q : Raw)
    (hq : IsRaw q) (hg : w.heap[ref]? = some ⟨some g, some d⟩) (hnd : HasNode w.study g d nd) :
    ((∃ hd, (step (.nodeProduction ref name cost q) w).1 = .ok hd) ↔
      name ∉ nd.productions.map (·.name) ∧
      Accepts w.study.horizon w.study.nbScn q ∧
      ¬ Everywhere w.study.horizon w.study.nbScn q (· < 0) ∧
      Accepts w.study.horizon w.study.nbScn cost) ∧
    (name ∉ nd.productions.map (·.name) → Accepts w.study.horizon w.study.nbScn q →
      Everywhere w.study.horizon w.study.nbScn q (· < 0) →
      (step (.nodeProduction ref name cost q) w).1 = .error .valueError) := by
  obtain ⟨net, hm, hmn⟩ := hnd
  have h1 := hi.study.get?_network hm
  have h2 := hi.study.get?_node hm hmn
  rcases withSel_run ref (fun g d => Study.addProduction g d name cost q) w with ⟨e, _, hno⟩ | ⟨g', d', hg', he⟩
  · exact absurd hg (hno g d)
  · rw [hg] at hg'; cases hg'
    rw [show step (.nodeProduction ref name cost q) w = _ from he]
    have hA := fun r => accept_iff _ _ w.study rfl rfl r
    refine ⟨⟨?_, ?_⟩, ?_⟩
    · rintro ⟨hd, hok⟩
      rcases Study.addProduction_run g d name cost q w.study with ⟨e, hr⟩ | ⟨net', n', qv, cv, a1, a2, a3, a4, a5, a6, hr⟩
      · simp [hr, Except.map] at hok
      · rw [h1] at a1; cases a1
        rw [h2] at a2; cases a2
        refine ⟨a3, (hA q).mp ⟨_, a4⟩, ?_, (hA cost).mp ⟨_, a6⟩⟩
        intro hneg
        rw [(Factory.lt_iff hq a4 hh hn 0).mpr hneg] at a5; cases a5
    · rintro ⟨a3, aq, aneg, ac⟩
      obtain ⟨qv, a4⟩ := (hA q).mpr aq
      obtain ⟨cv, a6⟩ := (hA cost).mpr ac
      have a5 : qv.lt 0 = false := by
        cases e : qv.lt 0 with
        | false => rfl
        | true => exact absurd ((Factory.lt_iff hq a4 hh hn 0).mp e) aneg
      exact ⟨_, by rw [(Study.addProduction_ok h1 h2 a3 a4).2 a5 a6]; rfl⟩
    · intro a3 aq aneg
      obtain ⟨qv, a4⟩ := (hA q).mpr aq
      rw [(Study.addProduction_ok (cv := qv) h1 h2 a3 a4).1 ((Factory.lt_iff hq a4 hh hn 0).mpr aneg)]
      rfl

/-- **C05** for links (through a network handle), see `C05_consumption_partial`. -/
theorem C05_link_partial (w : World) (hi : WorldInv w) (hh : 0 < w.study.horizon)
    (hn : 0 < w.study.nbScn) (ref : ℕ) (g src dest : String) (od : Option String)
    (nd nd' : InputNode) (cost q : Raw)
    (hq : IsRaw q) (hg : w.heap[ref]? = some ⟨some g, od⟩) (hnd : HasNode w.study g src nd)
    (hnd' : HasNode w.study g dest nd') :
    ((∃ hd, (step (.netLink ref src dest cost q) w).1 = .ok hd) ↔
      dest ∉ nd.links.map (·.dest) ∧
      Accepts w.study.horizon w.study.nbScn q ∧
      ¬ Everywhere w.study.horizon w.study.nbScn q (· < 0) ∧
      Accepts w.study.horizon w.study.nbScn cost) ∧
    (dest ∉ nd.links.map (·.dest) → Accepts w.study.horizon w.study.nbScn q →
      Everywhere w.study.horizon w.study.nbScn q (· < 0) →
      (step (.netLink ref src dest cost q) w).1 = .error .valueError) := by
  obtain ⟨net, hm, hmn⟩ := hnd
  obtain ⟨net', hm', hmn'⟩ := hnd'
  have h1 := hi.study.get?_network hm
  have h2 := hi.study.get?_node hm hmn
  have h1' := hi.study.get?_network hm'
  rw [h1] at h1'; cases h1'
  have hdk : dest ∈ net.nodes.keys := List.mem_map.mpr ⟨_, hmn', rfl⟩
  rcases link_run ref src dest cost q w with ⟨e, _, hno⟩ | ⟨g', d', hg', he⟩
  · exact absurd hg (hno g od)
  · rw [hg] at hg'; cases hg'
    rw [show step (.netLink ref src dest cost q) w = _ from he]
    have hA := fun r => accept_iff _ _ w.study rfl rfl r
    refine ⟨⟨?_, ?_⟩, ?_⟩
    · rintro ⟨hd, hok⟩
      rcases Study.addLink_run g src dest cost q w.study with ⟨e, hr⟩ | ⟨net', n', qv, cv, a1, a2, a0, a3, a4, a5, a6, hr⟩
      · simp [hr, Except.map] at hok
      · rw [h1] at a1; cases a1
        rw [h2] at a2; cases a2
        refine ⟨a3, (hA q).mp ⟨_, a4⟩, ?_, (hA cost).mp ⟨_, a6⟩⟩
        intro hneg
        rw [(Factory.lt_iff hq a4 hh hn 0).mpr hneg] at a5; cases a5
    · rintro ⟨a3, aq, aneg, ac⟩
      obtain ⟨qv, a4⟩ := (hA q).mpr aq
      obtain ⟨cv, a6⟩ := (hA cost).mpr ac
      have a5 : qv.lt 0 = false := by
        cases e : qv.lt 0 with
        | false => rfl
        | true => exact absurd ((Factory.lt_iff hq a4 hh hn 0).mp e) aneg
      exact ⟨_, by rw [(Study.addLink_ok h1 h2 hdk a3 a4).2 a5 a6]; rfl⟩
    · intro a3 aq aneg
      obtain ⟨qv, a4⟩ := (hA q).mpr aq
      rw [(Study.addLink_ok (cv := qv) h1 h2 hdk a3 a4).1 ((Factory.lt_iff hq a4 hh hn 0).mpr aneg)]
      rfl

/-- **C05** for storages, see `C05_consumption_partial`: all the numerical arguments being
acceptable, the storage is refused exactly when one of its series is negative everywhere, its
initial capacity negative, or its efficiency above 1 everywhere. -/
theorem C05_storage_partial (w : World) (hi : WorldInv w) (hh : 0 < w.study.horizon)
    (hn : 0 < w.study.nbScn) (ref : ℕ) (g d : String) (nd : InputNode) (a : Study.StorageArgs)
    (hr : RawCall (.nodeStorage ref a)) (hg : w.heap[ref]? = some ⟨some g, some d⟩)
    (hnd : HasNode w.study g d nd) (hname : a.name ∉ nd.storages.map (·.name))
    (hacc : ∀ r ∈ [a.capacity, a.flowIn, a.flowOut, a.cost, a.eff],
      Accepts w.study.horizon w.study.nbScn r) :
    ((∃ hd, (step (.nodeStorage ref a) w).1 = .ok hd) ↔
      ¬ Everywhere w.study.horizon w.study.nbScn a.flowIn (· < 0) ∧
      ¬ Everywhere w.study.horizon w.study.nbScn a.flowOut (· < 0) ∧
      ¬ Everywhere w.study.horizon w.study.nbScn a.capacity (· < 0) ∧
      0 ≤ a.initCapacity ∧
      ¬ Everywhere w.study.horizon w.study.nbScn a.eff (· < 0) ∧
      ¬ Everywhere w.study.horizon w.study.nbScn a.eff (1 < ·)) ∧
    ((¬ ∃ hd, (step (.nodeStorage ref a) w).1 = .ok hd) →
      (step (.nodeStorage ref a) w).1 = .error .valueError) := by
  obtain ⟨net, hm, hmn⟩ := hnd
  have h1 := hi.study.get?_network hm
  have h2 := hi.study.get?_node hm hmn
  obtain ⟨r1, r2, r3, r4, r5⟩ := hr
  have hA := fun r => accept_iff _ _ w.study rfl rfl r
  obtain ⟨cap, c1⟩ := (hA _).mpr (hacc a.capacity (by simp))
  obtain ⟨fi, c2⟩ := (hA _).mpr (hacc a.flowIn (by simp))
  obtain ⟨fo, c3⟩ := (hA _).mpr (hacc a.flowOut (by simp))
  obtain ⟨cv, c4⟩ := (hA _).mpr (hacc a.cost (by simp))
  obtain ⟨ev, c5⟩ := (hA _).mpr (hacc a.eff (by simp))
  have l1 := Factory.lt_iff r1 c1 hh hn 0
  have l2 := Factory.lt_iff r2 c2 hh hn 0
  have l3 := Factory.lt_iff r3 c3 hh hn 0
  have l5 := Factory.lt_iff r5 c5 hh hn 0
  have g5 := Factory.gt_iff r5 c5 hh hn 1
  have hok := Study.addStorage_ok (cv := cv) h1 h2 hname c2 c3 c1 c5
  rcases withSel_run ref (fun g d => Study.addStorage g d a) w with ⟨e, _, hno⟩ | ⟨g', d', hg', he⟩
  · exact absurd hg (hno g d)
  · rw [hg] at hg'; cases hg'
    rw [show step (.nodeStorage ref a) w = _ from he]
    by_cases hbad : fi.lt 0 = true ∨ fo.lt 0 = true ∨ cap.lt 0 = true ∨ a.initCapacity < 0 ∨
        ev.lt 0 = true ∨ ev.gt 1 = true
    · rw [hok.1 hbad]
      refine ⟨⟨?_, ?_⟩, fun _ => rfl⟩
      · rintro ⟨hd, hx⟩; simp [Except.map] at hx
      · rintro ⟨b1, b2, b3, b4, b5, b6⟩
        rw [l1, l2, l3, l5, g5] at hbad
        exfalso
        have := not_lt.mpr b4
        tauto
    · rw [not_or, not_or, not_or, not_or, not_or] at hbad
      obtain ⟨b1, b2, b3, b4, b5, b6⟩ := hbad
      have hyes := hok.2 (by simpa using b1) (by simpa using b2) (by simpa using b3)
        (not_lt.mp b4) (by simpa using b5) (by simpa using b6) c4
      rw [hyes]
      refine ⟨⟨?_, fun _ => ⟨_, rfl⟩⟩, fun hx => absurd ⟨_, rfl⟩ hx⟩
      intro _
      rw [l1] at b3; rw [l2] at b1; rw [l3] at b2; rw [l5] at b5; rw [g5] at b6
      exact ⟨b1, b2, b3, not_lt.mp b4, b5, b6⟩

/-- for a plain number, "negative everywhere" is "negative": the partial theorems above are then the
full claim -/
theorem C05_number (h n : ℕ) (hh : 0 < h) (hn : 0 < n) (q : ℚ) (P : ℚ → Prop) :
    Everywhere h n (.num q) P ↔ P q := by
  constructor
  · intro he
    obtain ⟨q', hm, hp⟩ := he 0 0 hn hh
    cases hm; exact hp
  · intro hp i j _ _; exact ⟨q, .number _ _ _, hp⟩

/-- C05 does not hold as stated: a consumption of quantity `[-1, 1]` is accepted. -/
theorem C05_refuted :
    ¬ ∀ (h n : ℕ) (cs : List Call) (ref : ℕ) (name : String) (cost q : Raw) (hd : Handle),
      (step (.nodeConsumption ref name cost q) ((start h n).run cs)).1 = .ok hd →
      Everywhere h n q (0 ≤ ·) := by
  intro hall
  have := hall 2 1 [.studyNetwork "g", .netNode 0 "a"] 0 "load" (.num 1) (.json (jrow [-1, 1]))
    (.node 0) (by decide +kernel)
  obtain ⟨q, hm, hq⟩ := this 0 0 (by decide) (by decide)
  have : q = -1 := C01_broadcast_unique 2 1 _ 0 0 (by decide) _ _ hm
    (.list _ _ _ _ (.perTime [-1, 1] 0 0 (-1) rfl rfl))
  rw [this] at hq
  exact absurd hq (by decide)

/-! ### C08: refused calls -/

/-- the calls that make or complete a converter -/
def IsConverterCall : Call → Prop
  | .netConverter .. | .nodeConverter .. | .nodeToConverter .. => True
  | _ => False

/-- **C08**, for every call but the converter ones: a call that raises leaves the study as it was.
Missing: converter calls, for which it is false (`C08_refuted`). -/
theorem C08_refused_partial (w w' : World) (c : Call) (e : PyErr) (hc : ¬ IsConverterCall c)
    (h : step c w = (.error e, w')) : w'.study = w.study := by
  have hnode : ∀ r name, node r name w = (.error e, w') → w'.study = w.study := by
    intro r name h
    rcases node_run r name w with ⟨_, h'⟩ | ⟨d, _, h'⟩ | ⟨g, d, _, h'⟩
    · rw [h'] at h; cases h; rfl
    · rw [h'] at h; cases h; rfl
    · rw [h'] at h
      rcases Study.addNode_run g name w.study with ⟨_, he⟩ | ⟨net, _, he⟩ <;> rw [he] at h <;> cases h
      rfl
  have hlink : ∀ g src dest cost q e, (Study.addLink g src dest cost q w.study).1 = .error e →
      (Study.addLink g src dest cost q w.study).2 = w.study := by
    intro g src dest cost q e h
    rcases Study.addLink_run g src dest cost q w.study with ⟨e', he⟩ | ⟨_, _, _, _, _, _, _, _, _, _, _, he⟩
    · rw [he]
    · rw [he] at h; cases h
  have hlink' : ∀ r src dest cost q, link r src dest cost q w = (.error e, w') → w'.study = w.study := by
    intro r src dest cost q h
    rcases link_run r src dest cost q w with ⟨e', h', _⟩ | ⟨g, d, _, h'⟩
    · rw [h'] at h; cases h; rfl
    · rw [h'] at h
      cases hx : (Study.addLink g src dest cost q w.study).1 with
      | ok u => rw [hx] at h; cases h
      | error e' => rw [hx] at h; cases h; exact hlink _ _ _ _ _ _ hx
  have hwith : ∀ r (f : String → String → PyM Study Unit),
      (∀ g d e, (f g d w.study).1 = .error e → (f g d w.study).2 = w.study) → (do
        let net ← selNetwork r
        let nd ← selNode r
        onStudy (f net nd)
        pure (.node r) : PyM World Handle) w = (.error e, w') → w'.study = w.study := by
    intro r f hf h
    rcases withSel_run r f w with ⟨e', h', _⟩ | ⟨g, d, _, h'⟩
    · have := h'.symm.trans h; cases this; rfl
    · have := h'.symm.trans h
      cases hx : (f g d w.study).1 with
      | ok u => rw [hx] at this; cases this
      | error e' => rw [hx] at this; cases this; exact hf _ _ _ hx
  cases c with
  | studyNetwork name => rw [show step (.studyNetwork name) w = _ from network_run name w] at h; cases h
  | studyAddNetwork name => simp [step, onStudy, Study.addNetwork_run] at h
  | studyAddNode g d =>
    simp only [step, onStudy, PyM.bind_run] at h
    rcases Study.addNode_run g d w.study with ⟨_, he⟩ | ⟨net, _, he⟩ <;> rw [he] at h <;> cases h
    rfl
  | studyAddLink g src dest cost q =>
    simp only [step, onStudy, PyM.bind_run] at h
    cases hx : Study.addLink g src dest cost q w.study with
    | mk r s =>
      rw [hx] at h
      cases r with
      | ok u => cases h
      | error e' =>
        cases h
        have := hlink g src dest cost q e (by rw [hx])
        rw [hx] at this; exact this
  | netNode r name => exact hnode r name h
  | netLink r src dest cost q => exact hlink' _ _ _ _ _ h
  | netNetwork r name => rw [show step (.netNetwork r name) w = _ from network_run name w] at h; cases h
  | netConverter => exact absurd trivial hc
  | nodeConsumption r name cost q =>
    refine hwith r (fun g d => Study.addConsumption g d name cost q) ?_ h
    intro g d e hx
    rcases Study.addConsumption_run g d name cost q w.study with ⟨e, he⟩ | ⟨_, _, _, _, _, _, _, _, _, _, he⟩
    · simp only [he]
    · simp only [he] at hx; cases hx
  | nodeProduction r name cost q =>
    refine hwith r (fun g d => Study.addProduction g d name cost q) ?_ h
    intro g d e hx
    rcases Study.addProduction_run g d name cost q w.study with ⟨e, he⟩ | ⟨_, _, _, _, _, _, _, _, _, _, he⟩
    · simp only [he]
    · simp only [he] at hx; cases hx
  | nodeStorage r a =>
    refine hwith r (fun g d => Study.addStorage g d a) ?_ h
    intro g d e hx
    rcases Study.addStorage_run g d a w.study with ⟨e, he⟩ |
      ⟨_, _, _, _, _, _, _, _, _, _, _, _, _, _, _, _, _, _, _, _, _, he⟩
    · simp only [he]
    · simp only [he] at hx; cases hx
  | nodeNode r name => exact hnode r name h
  | nodeLink r src dest cost q => exact hlink' _ _ _ _ _ h
  | nodeNetwork r name => rw [show step (.nodeNetwork r name) w = _ from network_run name w] at h; cases h
  | nodeConverter => exact absurd trivial hc
  | nodeToConverter => exact absurd trivial hc

/-- C08 does not hold for converters: a refused converter stays behind in the study. -/
theorem C08_refuted :
    ¬ ∀ (h n : ℕ) (cs : List Call) (c : Call) (e : PyErr) (w' : World),
      step c ((start h n).run cs) = (.error e, w') → w'.study = ((start h n).run cs).study := by
  intro hall
  have := hall 1 1 [.studyNetwork "g", .netNode 0 "a"] (.netConverter 0 "conv" "g" "missing" (.num 1) (.num 1))
    .valueError _ (by rfl)
  exact absurd this (by decide +kernel)

/-- ... and a refused completion even leaves a destination without a cost. -/
theorem C08_refuted_dest :
    ∃ (cs : List Call) (c : Call) (e : PyErr) (w' : World) (conv : Converter),
      step c ((start 1 1).run cs) = (.error e, w') ∧
      w'.study.converters.get? "conv" = some conv ∧ conv.destNode = "a" ∧ conv.cost = .int0 :=
  ⟨[.studyNetwork "g", .netNode 0 "a"], .netConverter 0 "conv" "g" "a" (.num 1) .other, .valueError,
    _, ⟨"conv", [], "g", "a", .int0, .int0⟩, by rfl, by decide +kernel⟩

/-! ### C12: handles -/

/-- **C12**, as far as it holds: as long as `.node(...)` is not called again on the same selector, an
element added through the handle of node `d` of network `g` goes to that node. Missing: calls of
`.node(...)` in between, for which it is false (`C12_refuted`). -/
theorem C12_handle_partial (h n : ℕ) (cs cs' : List Call) (ref r : ℕ) (g d : String)
    (od : Option String) (w1 w2 : World)
    (hg : ((start h n).run cs).heap[ref]? = some ⟨some g, od⟩)
    (hnode : step (.netNode ref d) ((start h n).run cs) = (.ok (.node r), w1))
    (hno : ∀ c ∈ cs', ¬ movesRef r c) (name : String) (cost q : Raw) (hd : Handle)
    (hq : IsRaw q) (hc : IsRaw cost)
    (hadd : step (.nodeConsumption r name cost q) (w1.run cs') = (.ok hd, w2)) :
    ∃ nd qv cv, OnlyNodeChanged (w1.run cs').study w2.study g d nd
      { nd with consumptions := nd.consumptions ++ [⟨cv, qv, name⟩] } := by
  obtain ⟨w1', h1, h2, _, _⟩ := C11_node h n cs _ rfl ref g od hg d
  rw [hnode] at h1
  cases h1
  have hsel := heap_run h2 cs' hno
  obtain ⟨g', d', nd, qv, cv, a1, a2, _⟩ := C09_consumption _ _ _ _ _ _ _ hq hc hadd
  rw [hsel] at a1; cases a1
  exact ⟨nd, qv, cv, a2⟩

/-- C12 does not hold in general: `a = net.node("a"); b = net.node("b"); a.consumption(...)` adds the
consumption to node `b`. -/
theorem C12_refuted :
    ∃ (cs : List Call) (w1 w2 : World) (hd : Handle),
      step (.netNode 0 "a") ((start 1 1).run cs) = (.ok (.node 0), w1) ∧
      step (.nodeConsumption 0 "load" (.num 1) (.num 1)) (w1.after (.netNode 0 "b")) = (.ok hd, w2) ∧
      (∃ net, w2.study.networks.get? "g" = some net ∧
        (net.nodes.get? "a").map (·.consumptions.map (·.name)) = some [] ∧
        (net.nodes.get? "b").map (·.consumptions.map (·.name)) = some ["load"]) :=
  ⟨[.studyNetwork "g"], _, _, _, by rfl, by rfl, _, by rfl, by decide +kernel⟩

/-! ### C13: converters -/

/-- **C13**, as far as it holds: converters are stored under their name, their sources exist, their
destination exists once given. -/
theorem C13_well_formed (h n : ℕ) (cs : List Call) : ConvertersOk ((start h n).run cs).study :=
  (reachable_inv h n cs).study.convs

/-- **C13**: a converter whose destination has non-empty names keeps it, with its cost and maximum,
whatever calls follow. Missing: empty names, see `C13_refuted`. -/
theorem C13_dest_kept_partial (h n : ℕ) (cs cs' : List Call) (name : String) (c : Converter)
    (hc : ((start h n).run cs).study.converters.get? name = some c)
    (h1 : c.destNetwork ≠ "") (h2 : c.destNode ≠ "") :
    ∃ c', ((start h n).run (cs ++ cs')).study.converters.get? name = some c' ∧
      c'.destNetwork = c.destNetwork ∧ c'.destNode = c.destNode ∧ c'.cost = c.cost ∧ c'.max = c.max := by
  have := keeps_run ((start h n).run cs) cs' name c hc h1 h2
  rwa [show ((start h n).run cs).run cs' = (start h n).run (cs ++ cs') by
    simp [World.run, List.foldl_append]] at this

/-- **C13**: a second destination is refused (and changes nothing). -/
theorem C13_second_refused_partial (w : World) (name g d : String) (mx cost : Raw) (r : ℕ)
    (c : Converter) (hc : w.study.converters.get? name = some c)
    (h1 : c.destNetwork ≠ "") (h2 : c.destNode ≠ "") :
    step (.netConverter r name g d mx cost) w = (.error .valueError, w) := by
  have hk : name ∈ w.study.converters.keys := List.mem_map.mpr ⟨_, Dict.mem_of_get? hc, rfl⟩
  have e1 : (Study.addConverter name w.study).2 = w.study := by
    rw [Study.addConverter_run]; simp only [hk, if_true]
  have e2 : Study.setConverterDest name g d cost mx w.study = (.error .valueError, w.study) := by
    simp [Study.setConverterDest, Dict.getE, hc, h1, h2]
  rcases converter_run name g d mx cost w with ⟨e, hx, h⟩ | ⟨hx, h⟩
  · rw [e1, e2] at hx h
    cases hx
    exact h
  · rw [e1, e2] at hx; cases hx

/-- C13 does not hold for empty names: network `""` is a legal name, and a destination in it can be
declared twice. -/
theorem C13_refuted :
    ∃ (cs : List Call) (c : Call) (w w' : World) (hd : Handle) (conv conv' : Converter),
      w = (start 1 1).run cs ∧ step c w = (.ok hd, w') ∧
      w.study.converters.get? "conv" = some conv ∧ w'.study.converters.get? "conv" = some conv' ∧
      conv.destNode = "a" ∧ conv.cost ≠ .int0 ∧ conv'.destNode = "b" :=
  ⟨[.studyNetwork "", .netNode 0 "a", .netNode 0 "b", .netConverter 0 "conv" "" "a" (.num 1) (.num 1)],
    .netConverter 0 "conv" "" "b" (.num 1) (.num 1), _, _, _, _, _, rfl, by rfl, by rfl, by rfl,
    by decide +kernel⟩

/-! ### The hypotheses are satisfiable -/

/-- a study with two nodes, all kinds of elements and a converter -/
def demoCalls : List Call :=
  [.studyNetwork "elec", .netNode 0 "a", .nodeConsumption 0 "load" (.num 100) (.json (jrow [10, 20])),
   .nodeProduction 0 "gas" (.num 50) (.num 30), .netNode 0 "b", .nodeProduction 0 "nuke" (.num 20) (.num 15),
   .nodeStorage 0 ⟨"cell", .num 10, .num 2, .num 2, .num 0, 5, .num (9/10)⟩,
   .nodeLink 0 "a" "b" (.num 1) (.num 10), .netNode 0 "a",
   .studyNetwork "gas", .netNode 1 "a", .nodeToConverter 1 "conv" (.num (1/2)),
   .nodeConverter 1 "conv" "elec" "b" (.num 100) (.num 3)]

example : ∀ c ∈ demoCalls, RawCall c := by
  intro c hc
  simp only [demoCalls, List.mem_cons, List.not_mem_nil, or_false] at hc
  rcases hc with rfl | rfl | rfl | rfl | rfl | rfl | rfl | rfl | rfl | rfl | rfl | rfl | rfl <;>
    simp [RawCall]

/-- none of these calls raises -/
example : (demoCalls.foldl (fun (p : Bool × World) c =>
      (p.1 && (step c p.2).1.toBool, (step c p.2).2)) (true, start 2 1)).1 = true := by
  decide +kernel

/-- after them, everything is in place -/
example : ((start 2 1).run demoCalls).study.converters.get? "conv" =
    some ⟨"conv", [(["gas", "a"], ⟨.scalar (1/2), 2, 1⟩)], "elec", "b", .val ⟨.scalar 3, 2, 1⟩,
      .val ⟨.scalar 100, 2, 1⟩⟩ := by decide +kernel

/-- a second destination, a second consumption of the same name, a link to nowhere are refused -/
example : (step (.netConverter 0 "conv" "elec" "a" (.num 1) (.num 1)) ((start 2 1).run demoCalls)).1 =
      .error .valueError ∧
    (step (.nodeConsumption 0 "load" (.num 1) (.num 1)) ((start 2 1).run demoCalls)).1 =
      .error .valueError ∧
    (step (.netLink 0 "a" "zzz" (.num 1) (.num 1)) ((start 2 1).run demoCalls)).1 =
      .error .valueError := by decide +kernel

/-- the hypotheses of `C05_consumption_partial` and `C12_handle_partial` -/
example : ((start 2 1).run demoCalls).heap[0]? = some ⟨some "elec", some "a"⟩ ∧
    (∀ c ∈ [Call.netNode 1 "x", .nodeProduction 0 "p" (.num 1) (.num 1)], ¬ movesRef 0 c) := by
  refine ⟨by decide +kernel, ?_⟩
  intro c hc
  simp only [List.mem_cons, List.not_mem_nil, or_false] at hc
  rcases hc with rfl | rfl <;> simp [movesRef]

/-! ### The theorems applied to concrete cases -/

theorem demoCalls_raw : ∀ c ∈ demoCalls, RawCall c := by
  intro c hc
  simp only [demoCalls, List.mem_cons, List.not_mem_nil, or_false] at hc
  rcases hc with rfl | rfl | rfl | rfl | rfl | rfl | rfl | rfl | rfl | rfl | rfl | rfl | rfl <;>
    simp [RawCall]

/-- The world after `demoCalls`. -/
abbrev demo : World := (start 2 1).run demoCalls

theorem demo_inv : WorldInv demo := reachable_inv 2 1 demoCalls

/-- A node of it. -/
def demoNode (g d : String) : InputNode := ((demo.study.networks.get? g).bind fun net => net.nodes.get? d).getD ⟨[], [], [], []⟩

theorem demoNode_has {g d : String} (h : ((demo.study.networks.get? g).bind fun net => net.nodes.get? d).isSome = true) :
    HasNode demo.study g d (demoNode g d) := by
  unfold demoNode
  cases hg : demo.study.networks.get? g with
  | none => rw [hg] at h; simp at h
  | some net =>
    rw [hg] at h
    simp only [Option.bind_some] at h ⊢
    cases hd : net.nodes.get? d with
    | none => rw [hd] at h; simp at h
    | some n => exact ⟨net, Dict.mem_of_get? hg, Dict.mem_of_get? hd⟩

theorem demoNode_a : HasNode demo.study "elec" "a" (demoNode "elec" "a") := demoNode_has (by decide +kernel)
theorem demoNode_b : HasNode demo.study "elec" "b" (demoNode "elec" "b") := demoNode_has (by decide +kernel)

/-- A call that is accepted answers a handle. -/
theorem accepted_pair {c : Call} {w : World} {hd : Handle} (h : (step c w).1 = .ok hd) :
    step c w = (.ok hd, (step c w).2) := by rw [← h]

/-- A call that raises says so. -/
theorem refused_pair {c : Call} {w : World} {e : PyErr} (h : (step c w).1 = .error e) :
    step c w = (.error e, (step c w).2) := by rw [← h]

example := C10_sized 2 1 demoCalls demoCalls_raw
example := C09_consumption demo _ 0 "night" (.num 5) (.json (jrow [1, 2])) (.node 0) (by simp [IsRaw]) (by simp [IsRaw])
  (accepted_pair (by decide +kernel))
example := C09_production demo _ 0 "wind" (.num 5) (.json (jrow [1, 2])) (.node 0) (by simp [IsRaw]) (by simp [IsRaw])
  (accepted_pair (by decide +kernel))
example := C09_storage demo _ 0 ⟨"lake", .num 8, .num 2, .json (jrow [1, 2]), .num 0, 5, .num (9/10)⟩ (.node 0)
  (by simp [RawCall]) (accepted_pair (by decide +kernel))
example := C09_link demo _ (.netLink 0 "b" "a" (.num 2) (.json (jrow [1, 2]))) "b" "a" (.num 2) (.json (jrow [1, 2])) (.net 0)
  (.inr (.inl ⟨0, rfl⟩)) (by simp [IsRaw]) (by simp [IsRaw]) (accepted_pair (by decide +kernel))
example := C09_converter_source demo _ 0 "other" (.num (1/3)) (.node 0) (by simp [IsRaw]) (accepted_pair (by decide +kernel))
example := C09_converter_source demo _ 0 "conv" (.num (1/3)) (.node 0) (by simp [IsRaw]) (accepted_pair (by decide +kernel))
example := C11_network 2 1 demoCalls "elec" demo rfl
example := C11_network 2 1 demoCalls "heat" demo rfl
example := C11_node 2 1 demoCalls demo rfl 0 "elec" (some "a") (by decide +kernel) "b"
example := C11_node 2 1 demoCalls demo rfl 0 "elec" (some "a") (by decide +kernel) "new"
example := C05_consumption_partial demo demo_inv (by decide +kernel) (by decide +kernel) 0 "elec" "a" "night" _
  (.num 3) (.json (jrow [-1, 2])) (by simp [IsRaw]) (by decide +kernel) demoNode_a
example := C05_production_partial demo demo_inv (by decide +kernel) (by decide +kernel) 0 "elec" "a" "wind" _
  (.num 3) (.json (jrow [-1, 2])) (by simp [IsRaw]) (by decide +kernel) demoNode_a
example := C05_link_partial demo demo_inv (by decide +kernel) (by decide +kernel) 0 "elec" "b" "a" (some "a") _ _
  (.num 3) (.json (jrow [-1, 2])) (by simp [IsRaw]) (by decide +kernel) demoNode_b demoNode_a
example := C05_storage_partial demo demo_inv (by decide +kernel) (by decide +kernel) 0 "elec" "a" _
  ⟨"lake", .num 8, .num 2, .json (jrow [-1, 2]), .num 0, 5, .num (9/10)⟩ (by simp [RawCall]) (by decide +kernel) demoNode_a
  (by decide +kernel) (by
    intro r hr
    simp only [List.mem_cons, List.not_mem_nil, or_false] at hr
    rcases hr with rfl | rfl | rfl | rfl | rfl
    · exact .number _
    · exact .number _
    · exact .list _ (.perTime _ (by decide +kernel))
    · exact .number _
    · exact .number _)
example := C05_number 2 1 (by decide) (by decide) (-3) (· < 0)
example := C08_refused_partial demo _ (.netLink 0 "a" "zzz" (.num 1) (.num 1)) .valueError (by simp [IsConverterCall])
  (refused_pair (by decide +kernel))
example := C12_handle_partial 2 1 demoCalls [.netNode 1 "x", .nodeProduction 0 "p" (.num 1) (.num 1)] 0 0 "elec" "b" (some "a") _ _
  (by decide +kernel) (accepted_pair (by decide +kernel)) (by
    intro c hc
    simp only [List.mem_cons, List.not_mem_nil, or_false] at hc
    rcases hc with rfl | rfl <;> simp [movesRef]) "night" (.num 5) (.json (jrow [1, 2])) (.node 0)
  (by simp [IsRaw]) (by simp [IsRaw]) (accepted_pair (by decide +kernel))
example := C13_dest_kept_partial 2 1 demoCalls [.netConverter 0 "conv" "elec" "a" (.num 1) (.num 1)] "conv"
  ⟨"conv", [(["gas", "a"], ⟨.scalar (1/2), 2, 1⟩)], "elec", "b", .val ⟨.scalar 3, 2, 1⟩, .val ⟨.scalar 100, 2, 1⟩⟩
  (by decide +kernel) (by decide) (by decide)
example := C13_second_refused_partial demo "conv" "elec" "a" (.num 1) (.num 1) 0
  ⟨"conv", [(["gas", "a"], ⟨.scalar (1/2), 2, 1⟩)], "elec", "b", .val ⟨.scalar 3, 2, 1⟩, .val ⟨.scalar 100, 2, 1⟩⟩
  (by decide +kernel) (by decide) (by decide)

end Hadar.Props
