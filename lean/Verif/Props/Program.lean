import Verif.Proofs.Program

/-!
# C102: what a program says is what its result shows
-/

namespace Hadar.Props

open Hadar Spec World

variable {h n : ℕ} {before later : List Call} {s : Study} {solver : Solver} {b : Benchmark} {r : Result}

/-- C102 for `node.consumption(name, cost, quantity)`: the node for which the selector stood has in the result one consumption of that
name; it is given between nothing and what the call asked, and the cost that counts for what it lacks is the one of the call. -/
theorem C102_consumption {ref : ℕ} {name : String} {cost q : Raw} (hp : Accepted h n before (.nodeConsumption ref name cost q) later s)
    (hs : SolvedBy solver b s r) : ∃ (g d : String) (m : InputNode) (i : ℕ) (c : Consumption) (o : OutputConsumption),
      StandsFor ((start h n).run before) ref g d ∧ HasNode s g d m ∧ m.consumptions[i]? = some c ∧
      (outNode r g d).consumptions[i]? = some o ∧ o.name = name ∧ ((outNode r g d).consumptions.map (·.name)).Nodup ∧
      ∀ k < n, ∀ t < h, Means h n cost k t (val c.cost k t) ∧
        ∃ Q, Means h n q k t Q ∧ 0 ≤ cell o.quantity k t ∧ cell o.quantity k t ≤ Q := by
  obtain ⟨hd, hstep⟩ := hp.step
  obtain ⟨e1, e2, e3, e4⟩ := hp.sizes
  obtain ⟨g, d, m0, qv, cv, h1, h2, h3, h4, _⟩ := C09_consumption _ _ _ _ _ _ _ hp.rawCall.2 hp.rawCall.1 hstep
  rw [e3, e4] at h3 h4
  obtain ⟨m, h5, h6⟩ := hp.ext.hasNode (hasNode_changed h2)
  have hc := get_prefix h6.consumptions
  have hi := Built.inv hp.built
  have hG := fun k hk t ht => C18_given (hs.ready hp.built) hs.solved (k := k) hk (fun st lg hl => (hs.answers k hk st lg hl).1) h5 hc (t := t) ht
  obtain ⟨X, b', hres⟩ := hs.result hp.built
  have ho : ∃ o, (outNode r g d).consumptions[m0.consumptions.length]? = some o ∧ o.name = name := by
    rw [hres, outNode_eq hi h5]
    simp [nodeAll, hc]
  obtain ⟨o, ho, hname⟩ := ho
  refine ⟨g, d, m, _, _, o, h1, h5, hc, ho, hname, ?_, ?_⟩
  · rw [hres, outNode_eq hi h5]
    have := hi.names.consumptions g d m h5
    rw [← zipIdx_map_fst _ _ 0] at this
    simpa [nodeAll, List.map_map, Function.comp_def] using this
  · intro k hk t ht
    have := hG k (by omega) t (by omega)
    rw [cellAt_get ho] at this
    exact ⟨stores_val h4 hk ht, _, stores_val h3 hk ht, this⟩

/-- C102 for `node.production(name, cost, quantity)` -/
theorem C102_production {ref : ℕ} {name : String} {cost q : Raw} (hp : Accepted h n before (.nodeProduction ref name cost q) later s)
    (hs : SolvedBy solver b s r) : ∃ (g d : String) (m : InputNode) (i : ℕ) (c : Production) (o : OutputProduction),
      StandsFor ((start h n).run before) ref g d ∧ HasNode s g d m ∧ m.productions[i]? = some c ∧
      (outNode r g d).productions[i]? = some o ∧ o.name = name ∧ ((outNode r g d).productions.map (·.name)).Nodup ∧
      ∀ k < n, ∀ t < h, Means h n cost k t (val c.cost k t) ∧
        ∃ Q, Means h n q k t Q ∧ 0 ≤ cell o.quantity k t ∧ cell o.quantity k t ≤ Q := by
  obtain ⟨hd, hstep⟩ := hp.step
  obtain ⟨e1, e2, e3, e4⟩ := hp.sizes
  obtain ⟨g, d, m0, qv, cv, h1, h2, h3, h4, _⟩ := C09_production _ _ _ _ _ _ _ hp.rawCall.2 hp.rawCall.1 hstep
  rw [e3, e4] at h3 h4
  obtain ⟨m, h5, h6⟩ := hp.ext.hasNode (hasNode_changed h2)
  have hc := get_prefix h6.productions
  have hi := Built.inv hp.built
  have hG := fun k hk t ht => (hs.bounds hp.built (k := k) hk).productions g d m h5 _ _ hc t ht
  obtain ⟨X, b', hres⟩ := hs.result hp.built
  have ho : ∃ o, (outNode r g d).productions[m0.productions.length]? = some o ∧ o.name = name := by
    rw [hres, outNode_eq hi h5]
    simp [nodeAll, hc]
  obtain ⟨o, ho, hname⟩ := ho
  refine ⟨g, d, m, _, _, o, h1, h5, hc, ho, hname, ?_, ?_⟩
  · rw [hres, outNode_eq hi h5]
    have := hi.names.productions g d m h5
    rw [← zipIdx_map_fst _ _ 0] at this
    simpa [nodeAll, List.map_map, Function.comp_def] using this
  · intro k hk t ht
    have := hG k (by omega) t (by omega)
    simp only [dispatchOf, cellAt_get ho] at this
    exact ⟨stores_val h4 hk ht, _, stores_val h3 hk ht, this⟩

/-- C102 for `link(src, dest, cost, quantity)` on a network or a node: node `src` of the network for which the selector stood has in the
result one link to `dest`, which carries between nothing and the quantity of the call. -/
theorem C102_link {ref : ℕ} {src dest : String} {cost q : Raw} {c : Call} (hcall : c = .netLink ref src dest cost q ∨ c = .nodeLink ref src dest cost q)
    (hp : Accepted h n before c later s) (hs : SolvedBy solver b s r) :
    ∃ (g : String) (d : Option String) (m : InputNode) (i : ℕ) (l : Link) (o : OutputLink),
      ((start h n).run before).heap[ref]? = some ⟨some g, d⟩ ∧ HasNode s g src m ∧ m.links[i]? = some l ∧
      (outNode r g src).links[i]? = some o ∧ o.dest = dest ∧ ((outNode r g src).links.map (·.dest)).Nodup ∧
      ∀ k < n, ∀ t < h, Means h n cost k t (val l.cost k t) ∧
        ∃ Q, Means h n q k t Q ∧ 0 ≤ cell o.quantity k t ∧ cell o.quantity k t ≤ Q := by
  obtain ⟨hd, hstep⟩ := hp.step
  obtain ⟨e1, e2, e3, e4⟩ := hp.sizes
  have hraw : (∀ v, cost ≠ .val v) ∧ (∀ v, q ≠ .val v) := by
    have := hp.rawCall
    rcases hcall with rfl | rfl <;> exact this
  obtain ⟨g, m0, qv, cv, h2, _, h0, _, h3, h4, _⟩ := C09_link _ _ c src dest cost q hd
    (hcall.elim (fun e => .inr (.inl ⟨ref, e⟩)) fun e => .inr (.inr ⟨ref, e⟩)) hraw.2 hraw.1 hstep
  obtain ⟨d, h1⟩ := h0 ref hcall
  rw [e3, e4] at h3 h4
  obtain ⟨m, h5, h6⟩ := hp.ext.hasNode (hasNode_changed h2)
  have hc := get_prefix h6.links
  have hi := Built.inv hp.built
  have hG := fun k hk t ht => (hs.bounds hp.built (k := k) hk).links g src m h5 _ _ hc t ht
  obtain ⟨X, b', hres⟩ := hs.result hp.built
  have ho : ∃ o, (outNode r g src).links[m0.links.length]? = some o ∧ o.dest = dest := by
    rw [hres, outNode_eq hi h5]
    simp [nodeAll, hc]
  obtain ⟨o, ho, hname⟩ := ho
  refine ⟨g, d, m, _, _, o, h1, h5, hc, ho, hname, ?_, ?_⟩
  · rw [hres, outNode_eq hi h5]
    have := hi.names.links g src m h5
    rw [← zipIdx_map_fst _ _ 0] at this
    simpa [nodeAll, List.map_map, Function.comp_def] using this
  · intro k hk t ht
    have := hG k (by omega) t (by omega)
    simp only [dispatchOf, cellAt_get ho] at this
    exact ⟨stores_val h4 hk ht, _, stores_val h3 hk ht, this⟩

/-- C102 for `node.storage(name, capacity, flow_in, flow_out, cost=0, init_capacity=0, eff=0.99)`: level and flows stay within what the
call says. The level follows the flows, from the initial one on, with the efficiency of the call, when it is the first storage of its node
(other storages: `C20_refuted`). -/
theorem C102_storage_partial {ref : ℕ} {name : String} {capacity flowIn flowOut : Raw} {cost eff : Option Raw} {init : Option ℚ}
    (hp : Accepted h n before (.storage ref name capacity flowIn flowOut cost init eff) later s) (hs : SolvedBy solver b s r) :
    ∃ (g d : String) (m : InputNode) (i : ℕ) (c : Storage) (o : OutputStorage),
      StandsFor ((start h n).run before) ref g d ∧ HasNode s g d m ∧ m.storages[i]? = some c ∧
      (outNode r g d).storages[i]? = some o ∧ o.name = name ∧ ((outNode r g d).storages.map (·.name)).Nodup ∧
      ∀ k < n, ∀ t < h, MeansOr h n cost 0 k t (val c.cost k t) ∧
        (∃ Q, Means h n capacity k t Q ∧ 0 ≤ cell o.capacity k t ∧ cell o.capacity k t ≤ Q) ∧
        (∃ Q, Means h n flowIn k t Q ∧ 0 ≤ cell o.flowIn k t ∧ cell o.flowIn k t ≤ Q) ∧
        (∃ Q, Means h n flowOut k t Q ∧ 0 ≤ cell o.flowOut k t ∧ cell o.flowOut k t ≤ Q) ∧
        (i = 0 → ∃ E, MeansOr h n eff (99 / 100) k t E ∧
          cell o.capacity k t = (if t = 0 then init.getD 0 else cell o.capacity k (t - 1)) + E * cell o.flowIn k t - cell o.flowOut k t) := by
  obtain ⟨hd, hstep⟩ := hp.step
  obtain ⟨e1, e2, e3, e4⟩ := hp.sizes
  obtain ⟨g, d, m0, c, h1, h2, n1, n2, s1, s2, s3, s4, s5, _⟩ := C09_storage _ _ _ _ _ hp.rawCall hstep
  rw [e3, e4] at s1 s2 s3 s4 s5
  obtain ⟨m, h5, h6⟩ := hp.ext.hasNode (hasNode_changed h2)
  have hc := get_prefix h6.storages
  have hi := Built.inv hp.built
  have hG := fun k hk t ht => (hs.bounds hp.built (k := k) hk).storages g d m h5 _ _ hc t ht
  obtain ⟨X, b', hres⟩ := hs.result hp.built
  have ho : ∃ o, (outNode r g d).storages[m0.storages.length]? = some o ∧ o.name = name := by
    rw [hres, outNode_eq hi h5]
    simp [nodeAll, hc, n1]
  obtain ⟨o, ho, hname⟩ := ho
  refine ⟨g, d, m, _, c, o, h1, h5, hc, ho, hname, ?_, ?_⟩
  · rw [hres, outNode_eq hi h5]
    have := hi.names.storages g d m h5
    rw [← zipIdx_map_fst _ _ 0] at this
    simpa [nodeAll, List.map_map, Function.comp_def] using this
  · intro k hk t ht
    have hb := hG k (by omega) t (by omega)
    simp only [dispatchOf, cellAt_get ho] at hb
    refine ⟨meansOr_getD (stores_val s4 hk ht), ⟨_, stores_val s1 hk ht, hb.1⟩, ⟨_, stores_val s2 hk ht, hb.2.1⟩,
      ⟨_, stores_val s3 hk ht, hb.2.2⟩, fun h0 => ⟨_, meansOr_getD (stores_val s5 hk ht), ?_⟩⟩
    rw [h0] at hc ho
    have := C20_solved_partial hp.built hs.sources hs.solved (k := k) (by omega) (hs.answers k (by omega)) h5 hc (t := t) (by omega)
    cases t with
    | zero => simpa [Evolves, levelBefore, dispatchOf, cellAt_get ho, n2] using this
    | succ t => simpa [Evolves, levelBefore, dispatchOf, cellAt_get ho] using this

/-- C102 for `node.to_converter(name, ratio=1)`: the result has one converter of that name, which takes from the node for which the
selector stood; what it takes there times the ratio of the call is what it gives. -/
theorem C102_to_converter {ref : ℕ} {name : String} {ratio : Option Raw} (hp : Accepted h n before (.toConverter ref name ratio) later s)
    (hs : SolvedBy solver b s r) : ∃ (g d : String) (o : OutputConverter) (a : NdArray), StandsFor ((start h n).run before) ref g d ∧
      (r.converters.map Prod.fst).Nodup ∧ (name, o) ∈ r.converters ∧ o.name = name ∧ (o.flowSrc.map Prod.fst).Nodup ∧
      ([g, d], a) ∈ o.flowSrc ∧
      ∀ k < n, ∀ t < h, 0 ≤ cell a k t ∧ ∃ R, MeansOr h n ratio 1 k t R ∧ cell a k t * R = cell o.flowDest k t := by
  obtain ⟨hd, hstep⟩ := hp.step
  obtain ⟨e1, e2, e3, e4⟩ := hp.sizes
  obtain ⟨g, d, c0, rv, s1, h1, _, h2, h3, _⟩ := C09_converter_source _ _ _ _ _ _ hp.rawCall hstep
  rw [e3, e4] at h3
  have hm : (name, { c0 with srcRatios := c0.srcRatios ++ [([g, d], rv)] }) ∈ ((start h n).run (before ++ [Call.toConverter ref name ratio])).study.converters := by
    obtain ⟨pre, post, _, e⟩ := h2
    rw [e]; simp
  obtain ⟨c, h5, h6⟩ := hp.ext.converters.mem hm
  have hsrc : ([g, d], rv) ∈ c.srcRatios := h6.sources.subset (by simp)
  have hi := Built.inv hp.built
  have hB := fun k hk t ht => (hs.bounds hp.built (k := k) hk).convSrc _ h5 g d rv hsrc t ht
  have hR := fun k hk t ht => C21_solved_partial hp.built hs.sources hs.solved (k := k) hk (hs.answers k hk) _ h5 g d rv hsrc t ht
  obtain ⟨X, b', hres⟩ := hs.result hp.built
  have g1 : r.converters.get? name = some (convAll s.nbScn s.horizon X name c) := by
    rw [hres]
    exact Dict.get?_map_mem (key := fun p : String × Converter => p.1) hi.names.converters h5
  have g2 : Dict.get? (convAll s.nbScn s.horizon X name c).flowSrc [g, d] = some (ofCells s.nbScn s.horizon fun k t => X k (.convSrc t name [g, d])) :=
    Dict.get?_map_mem (key := fun p : List String × NumVal => p.1) (hi.names.sources _ h5) hsrc
  refine ⟨g, d, convAll s.nbScn s.horizon X name c, _, h1, ?_, Dict.mem_of_get? g1, rfl, ?_, Dict.mem_of_get? g2, ?_⟩
  · rw [hres]
    have := hi.names.converters
    simpa [resultAll, List.map_map, Function.comp_def] using this
  · have := hi.names.sources _ h5
    simpa [convAll, List.map_map, Function.comp_def] using this
  · intro k hk t ht
    have b1 := (hB k (by omega) t (by omega)).1
    have b2 := hR k (by omega) t (by omega)
    simp only [dispatchOf, g1, Option.bind_some, g2] at b1 b2
    exact ⟨b1, _, meansOr_getD (stores_val h3 hk ht), b2⟩

/-- C102 for `converter(name, to_network, to_node, max, cost=0)` on a network or a node, to a node with a name: the result has one
converter of that name, which gives between nothing and the maximum of the call, to that node (C19) and at the cost of the call (C23).
Missing: destinations without name (`C13_refuted`). -/
theorem C102_converter_partial {onNode : Bool} {ref : ℕ} {name toNetwork toNode : String} {mx : Raw} {cost : Option Raw}
    (hp : Accepted h n before (.converter onNode ref name toNetwork toNode mx cost) later s) (hs : SolvedBy solver b s r)
    (hg : toNetwork ≠ "") (hd : toNode ≠ "") : ∃ (c : Converter) (o : OutputConverter),
      (name, c) ∈ s.converters ∧ c.destNetwork = toNetwork ∧ c.destNode = toNode ∧ (r.converters.map Prod.fst).Nodup ∧
      (name, o) ∈ r.converters ∧ o.name = name ∧ ∀ k < n, ∀ t < h, MeansOr h n cost 0 k t (fval c.cost k t) ∧
        ∃ M, Means h n mx k t M ∧ 0 ≤ cell o.flowDest k t ∧ cell o.flowDest k t ≤ M := by
  obtain ⟨hd', hstep⟩ := hp.step
  obtain ⟨e1, e2, e3, e4⟩ := hp.sizes
  have hraw : (∀ v, cost.getD (.num 0) ≠ .val v) ∧ (∀ v, mx ≠ .val v) := by
    have := hp.rawCall
    cases onNode <;> exact this
  have hrun : World.step (.converter onNode ref name toNetwork toNode mx cost) = World.converter name toNetwork toNode mx (cost.getD (.num 0)) := by
    cases onNode <;> rfl
  rw [hrun] at hstep
  have key : ∃ c, ((start h n).run (before ++ [Call.converter onNode ref name toNetwork toNode mx cost])).study.converters.get? name = some c ∧
      c.destNetwork = toNetwork ∧ c.destNode = toNode ∧ ∃ cv mv, c.cost = .val cv ∧ c.max = .val mv ∧
      Stores h n (cost.getD (.num 0)) cv ∧ Stores h n mx mv := by
    rcases converter_run name toNetwork toNode mx (cost.getD (.num 0)) ((start h n).run before) with ⟨e, _, hx⟩ | ⟨h1, hx⟩
    · rw [hx] at hstep; cases hstep
    · rw [hx] at hstep
      have hw := congrArg Prod.snd hstep
      dsimp only at hw
      rw [← hw]
      rcases Study.setConverterDest_run name toNetwork toNode (cost.getD (.num 0)) mx (Study.addConverter name ((start h n).run before).study).2 with
        ⟨e, he⟩ | ⟨c, net, p1, p2, p3, p4, ⟨e, _, he⟩ | ⟨cv, e, _, _, he⟩ | ⟨cv, mv, q1, q2, he⟩⟩
      · rw [he] at h1; cases h1
      · rw [he] at h1; cases h1
      · rw [he] at h1; cases h1
      · rw [addConverter_factory, Study.factory, e3, e4] at q1 q2
        refine ⟨{ c with destNetwork := toNetwork, destNode := toNode, cost := .val cv, max := .val mv }, ?_, rfl, rfl, cv, mv, rfl, rfl, ?_, ?_⟩
        · simp only [he]
          rw [Study.withDest_eq]
          simp [Study.withCost, Study.withMax, Study.updConv, Dict.get?_modify, p1]
        · exact stores_of_create hraw.1 q1
        · exact stores_of_create hraw.2 q2
  obtain ⟨c0, g0, d1, d2, cv, mv, c1, c2, s1, s2⟩ := key
  obtain ⟨c, g1, f1, f2, f3, f4⟩ := C13_dest_kept_partial h n _ later name c0 g0 (by rwa [d1]) (by rwa [d2])
  rw [List.append_assoc, List.singleton_append, ← hp.study] at g1
  have h5 := Dict.mem_of_get? g1
  have hi := Built.inv hp.built
  have hB := fun k hk t ht => (hs.bounds hp.built (k := k) hk).convDest _ h5 t ht
  obtain ⟨X, b', hres⟩ := hs.result hp.built
  have g2 : r.converters.get? name = some (convAll s.nbScn s.horizon X name c) := by
    rw [hres]
    exact Dict.get?_map_mem (key := fun p : String × Converter => p.1) hi.names.converters h5
  refine ⟨c, convAll s.nbScn s.horizon X name c, h5, f1.trans d1, f2.trans d2, ?_, Dict.mem_of_get? g2, rfl, ?_⟩
  · rw [hres]
    have := hi.names.converters
    simpa [resultAll, List.map_map, Function.comp_def] using this
  · intro k hk t ht
    have b1 := hB k (by omega) t (by omega)
    simp only [dispatchOf, g2, f4, c2, fval] at b1
    rw [f3, c1]
    exact ⟨meansOr_getD (stores_val s1 hk ht), _, stores_val s2 hk ht, b1⟩

/-! ### Concrete cases -/

theorem lpStudy_solved : ∃ r, SolvedBy (fun _ => lpAnswer) ⟨[], [], 0, 0⟩ lpStudy r := by
  obtain ⟨r, hr⟩ := (C70 lpStudy_ready.built lpStudy_distinct (by decide +kernel) (by decide +kernel)
    (fun _ => lpAnswer) ⟨[], [], 0, 0⟩).mpr ⟨lpStudy_ready.complete, lpStudy_ready.ratios, lpStudy_ready.clean⟩
  refine ⟨r, by decide +kernel, by decide +kernel, lpStudy_distinct, hr, fun k hk => ?_⟩
  obtain rfl : k = 0 := by
    have : lpStudy.nbScn = 1 := by decide +kernel
    omega
  intro st lg hl
  exact (lpAnswer_optimal st lg hl).1

theorem accepted_of {i : ℕ} {c : Call} (hc : lpCalls = lpCalls.take i ++ c :: lpCalls.drop (i + 1))
    (ha : ∃ hd, (step c ((start 1 1).run (lpCalls.take i))).1 = .ok hd) :
    Accepted 1 1 (lpCalls.take i) c (lpCalls.drop (i + 1)) lpStudy := by
  refine ⟨?_, ha, ?_⟩
  · rw [← hc]
    exact rawCalls_of (by decide +kernel)
  · rw [← hc]; rfl

example : Accepted 1 1 (lpCalls.take 2) (.nodeConsumption 0 "load" (.num 100) (.num 10)) (lpCalls.drop 3) lpStudy :=
  accepted_of rfl ⟨.node 0, by decide +kernel⟩

example : Accepted 1 1 (lpCalls.take 4) (.nodeProduction 0 "fuel" (.num 70) (.num 5)) (lpCalls.drop 5) lpStudy :=
  accepted_of rfl ⟨.node 0, by decide +kernel⟩

example : Accepted 1 1 (lpCalls.take 8) (.netLink 0 "a" "b" (.num 1) (.num 4)) (lpCalls.drop 9) lpStudy :=
  accepted_of rfl ⟨.net 0, by decide +kernel⟩

example : Accepted 1 1 (lpCalls.take 7) (.storage 0 "cell" (.num 8) (.num 2) (.num 2) none (some 5) (some (.num (9 / 10)))) (lpCalls.drop 8)
    lpStudy :=
  accepted_of rfl ⟨.node 0, by decide +kernel⟩

example : Accepted 1 1 (lpCalls.take 12) (.toConverter 1 "conv" (some (.num (1 / 2)))) (lpCalls.drop 13) lpStudy :=
  accepted_of rfl ⟨.node 1, by decide +kernel⟩

example : Accepted 1 1 (lpCalls.take 13) (.converter true 1 "conv" "elec" "b" (.num 3) (some (.num 2))) (lpCalls.drop 14) lpStudy :=
  accepted_of rfl ⟨.net 2, by decide +kernel⟩

/-- the storage of node `b` of the study empties at most by 2, down to nothing, from 5 -/
example : ∃ r o, SolvedBy (fun _ => lpAnswer) ⟨[], [], 0, 0⟩ lpStudy r ∧ (outNode r "elec" "b").storages[0]? = some o ∧
    cell o.capacity 0 0 = 5 + 9 / 10 * cell o.flowIn 0 0 - cell o.flowOut 0 0 ∧ cell o.flowOut 0 0 ≤ 2 := by
  obtain ⟨r, hs⟩ := lpStudy_solved
  obtain ⟨g, d, m, i, c, o, h1, h2, h3, h4, _, _, h5⟩ := C102_storage_partial (accepted_of (i := 7)
    (c := .storage 0 "cell" (.num 8) (.num 2) (.num 2) none (some 5) (some (.num (9 / 10)))) rfl ⟨.node 0, by decide +kernel⟩) hs
  have e : some (⟨some "elec", some "b"⟩ : Sel) = some ⟨some g, some d⟩ := h1
  simp only [Option.some.injEq, Sel.mk.injEq] at e
  obtain ⟨rfl, rfl⟩ := e
  have hm := inNode_eq (Built.inv lpStudy_ready.built) h2
  have hi : i = 0 := by
    have : (inNode lpStudy "elec" "b").storages.length = 1 := by decide +kernel
    rw [hm] at this
    have := (List.getElem?_eq_some_iff.mp h3).1
    omega
  subst hi
  obtain ⟨_, _, _, ⟨Q, q1, _, q2⟩, h6⟩ := h5 0 (by decide) 0 (by decide)
  obtain ⟨E, e1, e2⟩ := h6 rfl
  cases q1
  cases e1
  exact ⟨r, o, hs, h4, by simpa using e2, q2⟩

/-- a program which leaves out all that may be left out -/
def plainCalls : List Call :=
  [.network none, .netNode 0 "a", .storage 0 "cell" (.num 8) (.num 2) (.num 2) none none none, .toConverter 0 "conv" none,
   .netNode 0 "b", .converter false 0 "conv" "default" "b" (.num 3) none]

example : ∀ hd ∈ [Handle.net 0, .node 0, .node 0, .node 0, .node 0, .net 1].zipIdx,
    (plainCalls[hd.2]?.map fun c => (step c ((start 2 1).run (plainCalls.take hd.2))).1) = some (.ok hd.1) := by
  decide +kernel

/-! ### The theorems applied to concrete cases -/

example : ∃ r o, SolvedBy (fun _ => lpAnswer) ⟨[], [], 0, 0⟩ lpStudy r ∧ o ∈ (outNode r "elec" "a").consumptions ∧ o.name = "load" := by
  obtain ⟨r, hs⟩ := lpStudy_solved
  obtain ⟨g, d, m, i, c, o, h1, h2, h3, h4, h5, _, _⟩ := C102_consumption (accepted_of (i := 2)
    (c := .nodeConsumption 0 "load" (.num 100) (.num 10)) rfl ⟨.node 0, by decide +kernel⟩) hs
  have e : some (⟨some "elec", some "a"⟩ : Sel) = some ⟨some g, some d⟩ := h1
  simp only [Option.some.injEq, Sel.mk.injEq] at e
  obtain ⟨rfl, rfl⟩ := e
  exact ⟨r, o, hs, List.mem_of_getElem? h4, h5⟩

example : ∃ r o, SolvedBy (fun _ => lpAnswer) ⟨[], [], 0, 0⟩ lpStudy r ∧ o ∈ (outNode r "elec" "a").productions ∧ o.name = "fuel" := by
  obtain ⟨r, hs⟩ := lpStudy_solved
  obtain ⟨g, d, m, i, c, o, h1, h2, h3, h4, h5, _, _⟩ := C102_production (accepted_of (i := 4)
    (c := .nodeProduction 0 "fuel" (.num 70) (.num 5)) rfl ⟨.node 0, by decide +kernel⟩) hs
  have e : some (⟨some "elec", some "a"⟩ : Sel) = some ⟨some g, some d⟩ := h1
  simp only [Option.some.injEq, Sel.mk.injEq] at e
  obtain ⟨rfl, rfl⟩ := e
  exact ⟨r, o, hs, List.mem_of_getElem? h4, h5⟩

example : ∃ r o, SolvedBy (fun _ => lpAnswer) ⟨[], [], 0, 0⟩ lpStudy r ∧ o ∈ (outNode r "elec" "a").links ∧ o.dest = "b" := by
  obtain ⟨r, hs⟩ := lpStudy_solved
  obtain ⟨g, d, m, i, c, o, h1, h2, h3, h4, h5, _, _⟩ := C102_link (.inl rfl) (accepted_of (i := 8)
    (c := .netLink 0 "a" "b" (.num 1) (.num 4)) rfl ⟨.net 0, by decide +kernel⟩) hs
  have e : ((start 1 1).run (lpCalls.take 8)).heap[0]? = some ⟨some "elec", some "b"⟩ := by decide +kernel
  rw [h1] at e
  simp only [Option.some.injEq, Sel.mk.injEq] at e
  obtain ⟨rfl, rfl⟩ := e
  exact ⟨r, o, hs, List.mem_of_getElem? h4, h5⟩

example : ∃ r o a, SolvedBy (fun _ => lpAnswer) ⟨[], [], 0, 0⟩ lpStudy r ∧ ("conv", o) ∈ r.converters ∧ (["gas", "g"], a) ∈ o.flowSrc := by
  obtain ⟨r, hs⟩ := lpStudy_solved
  obtain ⟨g, d, o, a, h1, h2, h3, h4, h5, h6, _⟩ := C102_to_converter (accepted_of (i := 12)
    (c := .toConverter 1 "conv" (some (.num (1 / 2)))) rfl ⟨.node 1, by decide +kernel⟩) hs
  have e : ((start 1 1).run (lpCalls.take 12)).heap[1]? = some ⟨some "gas", some "g"⟩ := by decide +kernel
  unfold StandsFor at h1
  rw [h1] at e
  simp only [Option.some.injEq, Sel.mk.injEq] at e
  obtain ⟨rfl, rfl⟩ := e
  exact ⟨r, o, a, hs, h3, h6⟩

end Hadar.Props
