import Verif.Spec.Wire
import Verif.Proofs.Json
import Verif.Proofs.Plain

/-! # Lemmas on what goes over a wire -/

namespace Hadar

open Spec PyTree

namespace PyTree

@[simp] theorem convertAll_eq (l : List PyTree) : convertAll l = l.map convert := by
  induction l with
  | nil => simp [convertAll]
  | cons a l ih => simp [convertAll, ih]

@[simp] theorem convertEntries_eq (l : List (String × PyTree)) :
    convertEntries l = l.map fun p => (p.1, convert p.2) := by
  induction l with
  | nil => simp [convertEntries]
  | cons a l ih => obtain ⟨k, v⟩ := a; simp [convertEntries, convertEntry, ih]

@[simp] theorem convertTEntries_eq (l : List (List String × PyTree)) :
    convertTEntries l = l.map fun p => (p.1, convert p.2) := by
  induction l with
  | nil => simp [convertTEntries]
  | cons a l ih => obtain ⟨k, v⟩ := a; simp [convertTEntries, convertTEntry, ih]

@[simp] theorem copyTEntries_eq (l : List (List String × PyTree)) :
    copyTEntries l = l.map fun p => (joinKey p.1, copy p.2) := by
  induction l with
  | nil => simp [copyTEntries]
  | cons a l ih => obtain ⟨k, v⟩ := a; simp [copyTEntries, copyTEntry, ih]

@[simp] theorem copyEntries_eq (l : List (String × PyTree)) :
    copyEntries l = l.map fun p => (p.1, copy p.2) := by
  induction l with
  | nil => simp [copyEntries]
  | cons a l ih => obtain ⟨k, v⟩ := a; simp [copyEntries, copyEntry, ih]

theorem wireAll_map {α : Type} {f : α → PyTree} {g : α → Json} {l : List α} (h : ∀ a ∈ l, wire (f a) = some (g a)) :
    wireAll (l.map f) = some (l.map g) := by
  induction l with
  | nil => simp [wireAll]
  | cons a l ih =>
    simp [wireAll, h a (by simp), ih fun b hb => h b (by simp [hb])]

theorem wireEntries_map {α : Type} {k : α → String} {f : α → PyTree} {g : α → Json} {l : List α}
    (h : ∀ a ∈ l, wire (f a) = some (g a)) :
    wireEntries (l.map fun a => (k a, f a)) = some (l.map fun a => (k a, g a)) := by
  induction l with
  | nil => simp [wireEntries]
  | cons a l ih =>
    simp [wireEntries, wireEntry, h a (by simp), ih fun b hb => h b (by simp [hb])]

theorem wireAll_isSome (l : List PyTree) : (wireAll l).isSome ↔ ∀ v ∈ l, (wire v).isSome := by
  induction l with
  | nil => simp [wireAll]
  | cons a l ih =>
    rw [List.forall_mem_cons, ← ih]
    rcases h1 : wire a with _ | j <;> rcases h2 : wireAll l with _ | js <;> simp [wireAll, h1, h2]

theorem wireEntries_isSome (l : List (String × PyTree)) :
    (wireEntries l).isSome ↔ ∀ p ∈ l, (wire p.2).isSome := by
  induction l with
  | nil => simp [wireEntries]
  | cons a l ih =>
    rw [List.forall_mem_cons, ← ih]
    obtain ⟨k, v⟩ := a
    rcases h1 : wire v with _ | j <;> rcases h2 : wireEntries l with _ | js <;>
      simp [wireEntries, wireEntry, h1, h2]

theorem wire_converted {t : NumType} (h : t ≠ .other) (q : ℚ) : wire (.num t.converted q) = some (.num q) := by
  cases t <;> simp_all [NumType.converted, wire, sendable]

theorem wire_converted_isSome (t : NumType) (q : ℚ) : (wire (.num t.converted q)).isSome ↔ t ≠ .other := by
  cases t <;> simp [NumType.converted, wire, sendable]

theorem wire_tolistAux (t : NumType) (sh : List ℕ) (l : List ℚ) :
    wire (tolistAux t sh l) = some (Json.ofNdAux sh l) := by
  induction sh generalizing l with
  | nil =>
    cases l with
    | nil => simp [tolistAux, wire, Json.ofNdAux]
    | cons q l => cases t <;> simp [tolistAux, wire, Json.ofNdAux, NumType.listed, sendable]
  | cons n sh ih =>
    simp only [tolistAux, wire, Json.ofNdAux]
    rw [wireAll_map (g := Json.ofNdAux sh) fun a _ => ih a]
    rfl

end PyTree

theorem ofList_map_values {K V W : Type} [DecidableEq K] (f : V → W) (l : List (K × V)) :
    Dict.ofList (l.map fun p => (p.1, f p.2)) = (Dict.ofList l).map fun p => (p.1, f p.2) := by
  have hset : ∀ (d : Dict K V) k v, Dict.set (d.map fun p => (p.1, f p.2)) k (f v) =
      (Dict.set d k v).map fun p => (p.1, f p.2) := by
    intro d k v
    induction d with
    | nil => rfl
    | cons p d ih =>
      obtain ⟨k', v'⟩ := p
      simp only [List.map_cons, Dict.set]
      split <;> simp [ih]
  have : ∀ (l : List (K × V)) (d : Dict K V),
      (l.map fun p => (p.1, f p.2)).foldl (fun d kv => Dict.set d kv.1 kv.2) (d.map fun p => (p.1, f p.2)) =
        (l.foldl (fun d kv => Dict.set d kv.1 kv.2) d).map fun p => (p.1, f p.2) := by
    intro l
    induction l with
    | nil => intro d; rfl
    | cons p l ih => intro d; simp only [List.map_cons, List.foldl_cons]; rw [hset, ih]
  exact this l []

/-- entries with the same text override each other before and after the wire -/
theorem wire_ofList {α : Type} {k : α → String} {f : α → PyTree} {g : α → Json} {l : List α}
    (h : ∀ a ∈ l, wire (f a) = some (g a)) :
    wireEntries (Dict.ofList (l.map fun a => (k a, f a))) = some (Dict.ofList (l.map fun a => (k a, g a))) := by
  let G : PyTree → Json := fun v => (wire v).getD .null
  have e1 : (l.map fun a => (k a, g a)) = (l.map fun a => (k a, f a)).map fun p => (p.1, G p.2) := by
    rw [List.map_map]
    apply List.map_congr_left
    intro a ha
    simp [G, h a ha]
  rw [e1, ofList_map_values]
  have : ∀ p ∈ Dict.ofList (l.map fun a => (k a, f a)), wire p.2 = some (G p.2) := by
    intro p hp
    obtain ⟨a, ha, rfl⟩ := List.mem_map.mp (mem_of_ofList hp)
    simp [G, h a ha]
  simpa using wireEntries_map (k := Prod.fst) (f := Prod.snd) (g := fun p => G p.2) this

/-! ### The study -/

theorem NumVal.wire_tree {t : NumType} {v : NumVal} (h : v.isNumber = true → t = .int ∨ t = .float) :
    wire (convert (v.tree t)) = some v.toJson := by
  obtain ⟨k, hz, ns⟩ := v
  cases k with
  | scalar q =>
    rcases h rfl with rfl | rfl <;>
      simp [NumVal.tree, convert, NumVal.toJson, wire, wireEntries, wireEntry, NumType.converted, sendable]
  | matrix a =>
    simp [NumVal.tree, convert, NumVal.toJson, wire, wireEntries, wireEntry, NumType.converted, sendable,
      tolist, wire_tolistAux, Json.ofNd]
  | row a =>
    simp [NumVal.tree, convert, NumVal.toJson, wire, wireEntries, wireEntry, NumType.converted, sendable,
      tolist, wire_tolistAux, Json.ofNd]
  | column a =>
    simp [NumVal.tree, convert, NumVal.toJson, wire, wireEntries, wireEntry, NumType.converted, sendable,
      tolist, wire_tolistAux, Json.ofNd]

theorem ConvField.wire_tree {t : NumType} {v : ConvField} (h : v.isNumber = true → t = .int ∨ t = .float) :
    wire (convert (v.tree t)) = some v.toJson := by
  cases v with
  | int0 => simp [ConvField.tree, convert, ConvField.toJson, wire, NumType.converted, sendable]
  | val v => exact NumVal.wire_tree h

/-- the second conversion of `src_ratios` by `Converter.to_json` changes nothing -/
theorem PyTree.convert_tolistAux (t : NumType) (sh : List ℕ) (l : List ℚ) :
    convert (tolistAux t sh l) = tolistAux t sh l := by
  induction sh generalizing l with
  | nil =>
    cases l with
    | nil => simp [tolistAux, convert]
    | cons q l => cases t <;> simp [tolistAux, convert, NumType.listed, NumType.converted]
  | cons n sh ih => simp [tolistAux, convert, ih]

theorem NumVal.convert_twice (t : NumType) (v : NumVal) : convert (convert (v.tree t)) = convert (v.tree t) := by
  obtain ⟨k, hz, ns⟩ := v
  cases k <;> cases t <;>
    simp [NumVal.tree, convert, tolist, PyTree.convert_tolistAux, NumType.converted]

theorem Consumption.wire_tree {ty : String → NumType} {c : Consumption}
    (h : (c.cost.isNumber = true → ty "cost" = .int ∨ ty "cost" = .float) ∧
      (c.quantity.isNumber = true → ty "quantity" = .int ∨ ty "quantity" = .float)) :
    wire (convert (c.tree ty)) = some c.toJson := by
  simp [Consumption.tree, convert, Consumption.toJson, wire, wireEntries, wireEntry, NumVal.wire_tree h.1,
    NumVal.wire_tree h.2]

theorem Production.wire_tree {ty : String → NumType} {c : Production}
    (h : (c.cost.isNumber = true → ty "cost" = .int ∨ ty "cost" = .float) ∧
      (c.quantity.isNumber = true → ty "quantity" = .int ∨ ty "quantity" = .float)) :
    wire (convert (c.tree ty)) = some c.toJson := by
  simp [Production.tree, convert, Production.toJson, wire, wireEntries, wireEntry, NumVal.wire_tree h.1,
    NumVal.wire_tree h.2]

theorem Link.wire_tree {ty : String → NumType} {c : Link}
    (h : (c.cost.isNumber = true → ty "cost" = .int ∨ ty "cost" = .float) ∧
      (c.quantity.isNumber = true → ty "quantity" = .int ∨ ty "quantity" = .float)) :
    wire (convert (c.tree ty)) = some c.toJson := by
  simp [Link.tree, convert, Link.toJson, wire, wireEntries, wireEntry, NumVal.wire_tree h.1,
    NumVal.wire_tree h.2]

theorem Storage.wire_tree_iff {ty : String → NumType} {c : Storage}
    (h : (c.capacity.isNumber = true → ty "capacity" = .int ∨ ty "capacity" = .float) ∧
    (c.flowIn.isNumber = true → ty "flow_in" = .int ∨ ty "flow_in" = .float) ∧
    (c.flowOut.isNumber = true → ty "flow_out" = .int ∨ ty "flow_out" = .float) ∧
    (c.cost.isNumber = true → ty "cost" = .int ∨ ty "cost" = .float) ∧
    (c.eff.isNumber = true → ty "eff" = .int ∨ ty "eff" = .float)) :
    ((wire (convert (c.tree ty))).isSome ↔ ty "init_capacity" ≠ .other) ∧
      (ty "init_capacity" ≠ .other → wire (convert (c.tree ty)) = some c.toJson) := by
  obtain ⟨h1, h2, h3, h4, h5⟩ := h
  have key : ty "init_capacity" ≠ .other → wire (convert (c.tree ty)) = some c.toJson := by
    intro h6
    have h7 : sendable (ty "init_capacity").converted = true := by
      cases ht : ty "init_capacity" <;> simp_all [NumType.converted, sendable]
    simp [Storage.tree, convert, Storage.toJson, wire, wireEntries, wireEntry, NumVal.wire_tree h1,
      NumVal.wire_tree h2, NumVal.wire_tree h3, NumVal.wire_tree h4, NumVal.wire_tree h5, h7]
  refine ⟨⟨fun hs h6 => ?_, fun h6 => by simp [key h6]⟩, key⟩
  have : wire (.num .other c.initCapacity) = none := by simp [wire, sendable]
  simp [Storage.tree, convert, wire, wireEntries, wireEntry, NumVal.wire_tree h1,
      NumVal.wire_tree h2, NumVal.wire_tree h3, NumVal.wire_tree h4, NumVal.wire_tree h5, h6, NumType.converted,
      sendable] at hs

theorem Converter.wire_tree {ty : Types} {name : String} {c : Converter}
    (h : (c.cost.isNumber = true → ty (.conv name) "cost" = .int ∨ ty (.conv name) "cost" = .float) ∧
    (c.max.isNumber = true → ty (.conv name) "max" = .int ∨ ty (.conv name) "max" = .float) ∧
    ∀ q ∈ c.srcRatios, q.2.isNumber = true →
      ty (.src name q.1) "ratio" = .int ∨ ty (.src name q.1) "ratio" = .float) :
    wire (convert (c.tree ty name)) = some c.toJson := by
  obtain ⟨h1, h2, h3⟩ := h
  have e := wire_ofList (l := c.srcRatios) (k := fun p => joinKey p.1)
    (f := fun p => convert (p.2.tree (ty (.src name p.1) "ratio"))) (g := fun p => p.2.toJson)
    fun p hp => NumVal.wire_tree (h3 p hp)
  have e1 := ConvField.wire_tree h1
  have e2 := ConvField.wire_tree h2
  have f1 : ∀ k t (v : ConvField), joinTuples (k, convert (v.tree t)) = (k, convert (v.tree t)) := by
    intro k t v; cases v <;> simp [ConvField.tree, NumVal.tree, joinTuples, convert]
  simp only [Converter.tree, convert, convertEntries_eq, List.map_cons, List.map_nil, f1, convertTEntries_eq]
  simp [joinTuples, Converter.toJson, wire, wireEntries, wireEntry, e1, e2, List.map_map,
    Function.comp_def, e]

theorem zipIdx_map_of {α β : Type} (l : List α) (f : α → β) : l.zipIdx.map (fun p => f p.1) = l.map f := by
  rw [show (fun p : α × ℕ => f p.1) = f ∘ Prod.fst from rfl, ← List.map_map, List.zipIdx_map_fst]

theorem InputNode.wire_tree_iff {ty : Types} {g d : String} {n : InputNode}
    (h1 : ∀ i c, n.consumptions[i]? = some c →
      (c.cost.isNumber = true → ty (.cons g d i) "cost" = .int ∨ ty (.cons g d i) "cost" = .float) ∧
      (c.quantity.isNumber = true → ty (.cons g d i) "quantity" = .int ∨ ty (.cons g d i) "quantity" = .float))
    (h2 : ∀ i c, n.productions[i]? = some c →
      (c.cost.isNumber = true → ty (.prod g d i) "cost" = .int ∨ ty (.prod g d i) "cost" = .float) ∧
      (c.quantity.isNumber = true → ty (.prod g d i) "quantity" = .int ∨ ty (.prod g d i) "quantity" = .float))
    (h3 : ∀ i c, n.storages[i]? = some c →
      (c.capacity.isNumber = true → ty (.stor g d i) "capacity" = .int ∨ ty (.stor g d i) "capacity" = .float) ∧
      (c.flowIn.isNumber = true → ty (.stor g d i) "flow_in" = .int ∨ ty (.stor g d i) "flow_in" = .float) ∧
      (c.flowOut.isNumber = true → ty (.stor g d i) "flow_out" = .int ∨ ty (.stor g d i) "flow_out" = .float) ∧
      (c.cost.isNumber = true → ty (.stor g d i) "cost" = .int ∨ ty (.stor g d i) "cost" = .float) ∧
      (c.eff.isNumber = true → ty (.stor g d i) "eff" = .int ∨ ty (.stor g d i) "eff" = .float))
    (h4 : ∀ i c, n.links[i]? = some c →
      (c.cost.isNumber = true → ty (.link g d i) "cost" = .int ∨ ty (.link g d i) "cost" = .float) ∧
      (c.quantity.isNumber = true → ty (.link g d i) "quantity" = .int ∨ ty (.link g d i) "quantity" = .float)) :
    ((wire (convert (n.tree ty g d))).isSome ↔
        ∀ i < n.storages.length, ty (.stor g d i) "init_capacity" ≠ .other) ∧
      ((∀ i < n.storages.length, ty (.stor g d i) "init_capacity" ≠ .other) →
        wire (convert (n.tree ty g d)) = some n.toJson) := by
  have e1 := wireAll_map (l := n.consumptions.zipIdx) (f := fun p => convert (p.1.tree (ty (.cons g d p.2))))
    (g := fun p => p.1.toJson) fun p hp => Consumption.wire_tree (h1 _ _ (List.mem_zipIdx_iff_getElem?.mp hp))
  have e2 := wireAll_map (l := n.productions.zipIdx) (f := fun p => convert (p.1.tree (ty (.prod g d p.2))))
    (g := fun p => p.1.toJson) fun p hp => Production.wire_tree (h2 _ _ (List.mem_zipIdx_iff_getElem?.mp hp))
  have e4 := wireAll_map (l := n.links.zipIdx) (f := fun p => convert (p.1.tree (ty (.link g d p.2))))
    (g := fun p => p.1.toJson) fun p hp => Link.wire_tree (h4 _ _ (List.mem_zipIdx_iff_getElem?.mp hp))
  rw [zipIdx_map_of _ Consumption.toJson] at e1
  rw [zipIdx_map_of _ Production.toJson] at e2
  rw [zipIdx_map_of _ Link.toJson] at e4
  have key : (∀ i < n.storages.length, ty (.stor g d i) "init_capacity" ≠ .other) →
      wireAll (n.storages.zipIdx.map fun p => convert (p.1.tree (ty (.stor g d p.2)))) =
        some (n.storages.map Storage.toJson) := by
    intro h
    have e3 := wireAll_map (l := n.storages.zipIdx) (f := fun p => convert (p.1.tree (ty (.stor g d p.2))))
      (g := fun p => p.1.toJson) fun p hp => by
        have hp := List.mem_zipIdx_iff_getElem?.mp hp
        exact (Storage.wire_tree_iff (h3 _ _ hp)).2 (h _ (List.getElem?_eq_some_iff.mp hp).1)
    rwa [zipIdx_map_of _ Storage.toJson] at e3
  have tree_eq : wire (convert (n.tree ty g d)) =
      (wireAll (n.storages.zipIdx.map fun p => convert (p.1.tree (ty (.stor g d p.2))))).map fun js =>
        .obj [("consumptions", .arr (n.consumptions.map Consumption.toJson)),
          ("productions", .arr (n.productions.map Production.toJson)), ("storages", .arr js),
          ("links", .arr (n.links.map Link.toJson))] := by
    simp only [InputNode.tree, convert, convertEntries_eq, List.map_cons, List.map_nil, convertAll_eq, List.map_map,
      Function.comp_def, wire, wireEntries, wireEntry, e1, e2, e4, Option.map_some]
    generalize wireAll (n.storages.zipIdx.map fun p => convert (p.1.tree (ty (.stor g d p.2)))) = o
    cases o <;> rfl
  rw [tree_eq]
  refine ⟨⟨?_, fun h => by simp [key h]⟩, fun h => by simp [key h, InputNode.toJson]⟩
  intro hs i hi
  rw [Option.isSome_map, wireAll_isSome] at hs
  have hp : (n.storages[i], i) ∈ n.storages.zipIdx := List.mem_zipIdx_iff_getElem?.mpr (List.getElem?_eq_getElem hi)
  exact (Storage.wire_tree_iff (h3 _ _ (List.getElem?_eq_getElem hi))).1.mp (hs _ (List.mem_map.mpr ⟨_, hp, rfl⟩))

theorem Study.wire_tree_iff {ty : Types} {s : Study} (h : GivenTypes ty s) :
    ((wire (convert (s.tree ty))).isSome ↔ KnownLevels ty s) ∧
      (KnownLevels ty s → wire (convert (s.tree ty)) = some s.toJson) := by
  have hnode : ∀ p ∈ s.networks, ∀ q ∈ p.2.nodes, _ := fun p hp q hq =>
    have hn : HasNode s p.1 q.1 q.2 := ⟨p.2, hp, hq⟩
    InputNode.wire_tree_iff (ty := ty) (h.consumptions _ _ _ hn) (h.productions _ _ _ hn) (h.storages _ _ _ hn)
      (h.links _ _ _ hn)
  have hconv := wireEntries_map (l := s.converters) (k := Prod.fst) (f := fun p => convert (p.2.tree ty p.1))
    (g := fun p => p.2.toJson) fun p hp => Converter.wire_tree (h.converters p hp)
  have tree_eq : wire (convert (s.tree ty)) =
      (wireEntries (s.networks.map fun p => (p.1, PyTree.dict [("nodes",
        .dict (p.2.nodes.map fun q => (q.1, convert (q.2.tree ty p.1 q.1))))]))).map fun js =>
        .obj [("version", .str s.version), ("networks", .obj js),
          ("converters", .obj (s.converters.map fun p => (p.1, p.2.toJson))),
          ("horizon", .num s.horizon), ("nb_scn", .num s.nbScn)] := by
    simp only [Study.tree, convert, convertEntries_eq, List.map_map, ne_eq, List.filter_cons, List.filter_nil, String.reduceEq,
      not_true, not_false_iff, decide_true, decide_false, if_true, Bool.false_eq_true, if_false,
      Function.comp_def, List.map_cons, List.map_nil, wire, wireEntries, wireEntry, hconv, Option.map_some,
      NumType.converted, sendable]
    generalize wireEntries (s.networks.map fun p => (p.1, PyTree.dict [("nodes",
        .dict (p.2.nodes.map fun q => (q.1, convert (q.2.tree ty p.1 q.1))))])) = o
    cases o <;> rfl
  have key : KnownLevels ty s → wire (convert (s.tree ty)) = some s.toJson := by
    intro hl
    have := wireEntries_map (l := s.networks) (k := Prod.fst) (f := fun p => PyTree.dict [("nodes",
        .dict (p.2.nodes.map fun q => (q.1, convert (q.2.tree ty p.1 q.1))))]) (g := fun p => p.2.toJson)
        fun p hp => by
          have := wireEntries_map (l := p.2.nodes) (k := Prod.fst) (f := fun q => convert (q.2.tree ty p.1 q.1))
            (g := fun q => q.2.toJson) fun q hq => (hnode p hp q hq).2 (hl _ _ _ ⟨p.2, hp, hq⟩)
          simp [wire, wireEntries, wireEntry, this, InputNetwork.toJson]
    rw [tree_eq, this]
    simp [Study.toJson]
  refine ⟨⟨?_, fun hl => by simp [key hl]⟩, key⟩
  intro hs g d n hn
  obtain ⟨net, hg, hd⟩ := hn
  rw [tree_eq, Option.isSome_map, wireEntries_isSome] at hs
  have h1 := hs _ (List.mem_map.mpr ⟨_, hg, rfl⟩)
  simp only [wire, wireEntries, wireEntry] at h1
  have h2 : (wireEntries (net.nodes.map fun q => (q.1, convert (q.2.tree ty g q.1)))).isSome := by
    rcases hw : wireEntries (net.nodes.map fun q => (q.1, convert (q.2.tree ty g q.1))) with _ | js
    · simp [hw] at h1
    · exact Option.isSome_iff_exists.mpr ⟨js, hw⟩
  rw [wireEntries_isSome] at h2
  exact (hnode _ hg _ hd).1.mp (h2 _ (List.mem_map.mpr ⟨_, hd, rfl⟩))

/-! ### The answer of a worker -/

theorem copy_num (t : NumType) (q : ℚ) : copy (.num t q) = .num t.converted q := by simp [copy]

theorem copy_var (q : ℚ) : copy (.var q) = .num .float q := by simp [copy]

theorem copy_str (s : String) : copy (.str s) = .str s := by simp [copy]

theorem sendable_converted (t : NumType) : sendable t.converted = true ↔ t ≠ .other := by
  cases t <;> simp [NumType.converted, sendable]

/-- a consumption in the answer -/
def lpConsJson (c : LPConsumption ℚ) : Json :=
  .obj [("cost", .num c.cost), ("quantity", .num c.quantity), ("name", .str c.name), ("variable", .num c.var)]

/-- a production in the answer -/
def lpProdJson (c : LPProduction ℚ) : Json :=
  .obj [("name", .str c.name), ("cost", .num c.cost), ("variable", .num c.var), ("quantity", .num c.quantity)]

/-- a storage in the answer -/
def lpStorJson (c : LPStorage ℚ) : Json :=
  .obj [("name", .str c.name), ("capacity", .num c.capacity), ("var_capacity", .num c.varCapacity),
    ("flow_in", .num c.flowIn), ("var_flow_in", .num c.varFlowIn), ("flow_out", .num c.flowOut),
    ("var_flow_out", .num c.varFlowOut), ("cost", .num c.cost), ("init_capacity", .num c.initCapacity),
    ("eff", .num c.eff)]

/-- a link in the answer -/
def lpLinkJson (c : LPLink ℚ) : Json :=
  .obj [("src", .str c.src), ("dest", .str c.dest), ("quantity", .num c.quantity), ("variable", .num c.var),
    ("cost", .num c.cost)]

/-- a converter in the answer -/
def lpConvJson (x : Var → ℚ) (c : LPConverter Var) : Json :=
  .obj [("name", .str c.name),
    ("src_ratios", .obj (Dict.ofList (c.srcRatios.map fun p => (joinKey p.1, .num p.2)))),
    ("var_flow_src", .obj (Dict.ofList (c.varFlowSrc.map fun p => (joinKey p.1, .num (x p.2))))),
    ("dest_network", .str c.destNetwork), ("dest_node", .str c.destNode), ("var_flow_dest", .num (x c.varFlowDest)),
    ("cost", .num c.cost), ("max", .num c.max)]

/-- a node in the answer -/
def lpNodeJson (n : LPNode ℚ) : Json :=
  .obj [("consumptions", .arr (n.consumptions.map lpConsJson)), ("productions", .arr (n.productions.map lpProdJson)),
    ("storages", .arr (n.storages.map lpStorJson)), ("links", .arr (n.links.map lpLinkJson))]

/-- a time step in the answer -/
def lpStepJson (x : Var → ℚ) (ts : LPTimeStep Var) : Json :=
  .obj [("networks", .obj (ts.networks.map fun p =>
      (p.1, .obj [("nodes", .obj (p.2.map fun q => (q.1, lpNodeJson (q.2.received x))))]))),
    ("converters", .obj (ts.converters.map fun p => (p.1, lpConvJson x p.2)))]

theorem LPConsumption.read (c : LPConsumption ℚ) : (LPConsumption.fromJson (lpConsJson c)).1 = .ok c := by
  simp [LPConsumption.fromJson, lpConsJson, Json.kwargs, Dict.keys, Json.ratOr, Json.strOr, Dict.get?, Json.asNum,
    Json.asStr]

theorem LPProduction.read (c : LPProduction ℚ) : (LPProduction.fromJson (lpProdJson c)).1 = .ok c := by
  simp [LPProduction.fromJson, lpProdJson, Json.kwargs, Dict.keys, Json.ratOr, Json.strOr, Dict.get?, Json.asNum,
    Json.asStr]

theorem LPStorage.read (c : LPStorage ℚ) : (LPStorage.fromJson (lpStorJson c)).1 = .ok c := by
  simp [LPStorage.fromJson, lpStorJson, Json.kwargs, Dict.keys, Json.ratOr, Json.strOr, Dict.get?, Json.asNum,
    Json.asStr]

theorem LPLink.read (c : LPLink ℚ) : (LPLink.fromJson (lpLinkJson c)).1 = .ok c := by
  simp [LPLink.fromJson, lpLinkJson, Json.kwargs, Dict.keys, Json.ratOr, Json.strOr, Dict.get?, Json.asNum,
    Json.asStr]

theorem LPNode.read (n : LPNode ℚ) : (LPNode.fromJson (lpNodeJson n)).1 = .ok n := by
  unfold LPNode.fromJson lpNodeJson
  rw [PyM.bind_run, Json.overList_run (l := n.consumptions) (g := lpConsJson) (by simp [Dict.get?])
    fun c _ => LPConsumption.read c]
  simp only [Dict.set, PyM.bind_run, Json.setItem, String.reduceEq, if_true, if_false]
  rw [Json.overList_run (l := n.productions) (g := lpProdJson) (by simp [Dict.get?]) fun c _ => LPProduction.read c]
  simp only [Dict.set, PyM.bind_run, Json.setItem, String.reduceEq, if_true, if_false]
  rw [Json.overList_run (l := n.storages) (g := lpStorJson) (by simp [Dict.get?]) fun c _ => LPStorage.read c]
  simp only [Dict.set, PyM.bind_run, Json.setItem, String.reduceEq, if_true, if_false]
  rw [Json.overList_run (l := n.links) (g := lpLinkJson) (by simp [Dict.get?]) fun c _ => LPLink.read c]
  simp [Dict.set, PyM.bind_run, Json.setItem, Json.kwargs, Dict.keys]

/-- numbers of a dict with joined keys -/
theorem overSplit_numbers {l : Dict (List String) ℚ} {k : String} {o : List (String × Json)}
    (hk : Dict.get? o k = some (.obj (Dict.ofList (l.map fun p => (joinKey p.1, Json.num p.2))))) :
    ∃ j, Json.overSplitItems k Json.number (.obj o) = (.ok (wireKeys l), .obj (Dict.set o k j)) := by
  have e : Dict.ofList (l.map fun p => (joinKey p.1, Json.num p.2)) =
      (Dict.ofList (l.map fun p => (joinKey p.1, p.2))).map fun p => (p.1, Json.num p.2) := by
    rw [← ofList_map_values, List.map_map]; rfl
  refine ⟨.obj (Json.mapItems Json.number
    ((Dict.ofList (l.map fun p => (joinKey p.1, p.2))).map fun p => (p.1, Json.num p.2))).2, ?_⟩
  simp only [Json.overSplitItems, PyM.bind_run, Json.item, Dict.getE, hk]
  rw [e, Json.mapItems_map (f := Json.number) (g := Json.num) fun x _ => by simp [Json.number, Json.asNum]]
  simp only [Except.map, Json.setItem, wireKeys]

theorem LPConverter.read (x : Var → ℚ) (c : LPConverter Var) :
    (LPConverter.fromJson (lpConvJson x c)).1 = .ok (c.received x) := by
  unfold LPConverter.fromJson lpConvJson
  obtain ⟨j1, e1⟩ := overSplit_numbers (l := c.srcRatios) (k := "src_ratios") (o :=
    [("name", .str c.name),
    ("src_ratios", .obj (Dict.ofList (c.srcRatios.map fun p => (joinKey p.1, .num p.2)))),
    ("var_flow_src", .obj (Dict.ofList (c.varFlowSrc.map fun p => (joinKey p.1, .num (x p.2))))),
    ("dest_network", .str c.destNetwork), ("dest_node", .str c.destNode), ("var_flow_dest", .num (x c.varFlowDest)),
    ("cost", .num c.cost), ("max", .num c.max)]) (by simp [Dict.get?])
  rw [PyM.bind_run, e1]
  simp only [Dict.set, PyM.bind_run, Json.setItem, String.reduceEq, if_true, if_false]
  obtain ⟨j2, e2⟩ := overSplit_numbers (l := c.varFlowSrc.map fun p => (p.1, x p.2)) (k := "var_flow_src") (o :=
    [("name", .str c.name), ("src_ratios", .native),
    ("var_flow_src", .obj (Dict.ofList (c.varFlowSrc.map fun p => (joinKey p.1, .num (x p.2))))),
    ("dest_network", .str c.destNetwork), ("dest_node", .str c.destNode), ("var_flow_dest", .num (x c.varFlowDest)),
    ("cost", .num c.cost), ("max", .num c.max)]) (by simp [Dict.get?, List.map_map, Function.comp_def])
  rw [e2]
  simp [Dict.set, PyM.bind_run, Json.setItem, Json.kwargs, Dict.keys, Json.ratOr, Json.strOr, Dict.get?, Json.asNum,
    Json.asStr, LPConverter.received]

theorem LPTimeStep.read (x : Var → ℚ) (ts : LPTimeStep Var) (h1 : (ts.networks.map Prod.fst).Nodup)
    (h2 : ∀ p ∈ ts.networks, (p.2.map Prod.fst).Nodup) (h3 : (ts.converters.map Prod.fst).Nodup) :
    (LPTimeStep.fromJson (lpStepJson x ts)).1 = .ok (ts.received x) := by
  unfold LPTimeStep.fromJson lpStepJson
  rw [PyM.bind_run, Json.overItems_run' (f := lpNetworkFromJson) (l := ts.networks)
    (g := fun m => .obj [("nodes", .obj (m.map fun q => (q.1, lpNodeJson (q.2.received x))))])
    (w := fun m => m.map fun q => (q.1, q.2.received x)) (by simp [Dict.get?]) ?_ h1]
  · simp only [Dict.set, PyM.bind_run, String.reduceEq, if_true, if_false]
    rw [Json.overItems_run' (f := LPConverter.fromJson) (l := ts.converters) (g := lpConvJson x)
      (w := fun c => c.received x) (by simp [Dict.get?]) (fun p _ => LPConverter.read x p.2) h3]
    simp [LPTimeStep.received]
  · intro p hp
    unfold lpNetworkFromJson
    rw [PyM.bind_run, Json.overItems_run' (f := LPNode.fromJson) (l := p.2) (g := fun n => lpNodeJson (n.received x))
      (w := fun n => n.received x) (by simp [Dict.get?]) (fun q _ => LPNode.read _) (h2 p hp)]
    simp [Dict.set, PyM.bind_run, Json.setItem, Json.kwargs, Dict.keys]

theorem LPConsumption.wire_tree (ty : String → NumType) (x : Var → ℚ) (c : LPConsumption Var) :
    ((wire (convert (c.tree ty x))).isSome ↔ ∀ f ∈ ["cost", "quantity"], ty f ≠ .other) ∧
      ((∀ f ∈ ["cost", "quantity"], ty f ≠ .other) →
        wire (convert (c.tree ty x)) = some (lpConsJson { c with var := x c.var })) := by
  simp only [List.forall_mem_cons, List.not_mem_nil, false_imp_iff, implies_true, and_true, ← sendable_converted]
  by_cases h1 : sendable (ty "cost").converted = true <;> by_cases h2 : sendable (ty "quantity").converted = true <;>
    simp [LPConsumption.tree, convert, copy_num, copy_var, copy_str, wire, wireEntries, wireEntry, lpConsJson, h1, h2,
      show sendable .float = true from rfl]

theorem LPProduction.wire_tree (ty : String → NumType) (x : Var → ℚ) (c : LPProduction Var) :
    ((wire (convert (c.tree ty x))).isSome ↔ ∀ f ∈ ["cost", "quantity"], ty f ≠ .other) ∧
      ((∀ f ∈ ["cost", "quantity"], ty f ≠ .other) →
        wire (convert (c.tree ty x)) = some (lpProdJson { c with var := x c.var })) := by
  simp only [List.forall_mem_cons, List.not_mem_nil, false_imp_iff, implies_true, and_true, ← sendable_converted]
  by_cases h1 : sendable (ty "cost").converted = true <;> by_cases h2 : sendable (ty "quantity").converted = true <;>
    simp [LPProduction.tree, convert, copy_num, copy_var, copy_str, wire, wireEntries, wireEntry, lpProdJson, h1, h2,
      show sendable .float = true from rfl]

theorem LPLink.wire_tree (ty : String → NumType) (x : Var → ℚ) (c : LPLink Var) :
    ((wire (convert (c.tree ty x))).isSome ↔ ∀ f ∈ ["cost", "quantity"], ty f ≠ .other) ∧
      ((∀ f ∈ ["cost", "quantity"], ty f ≠ .other) →
        wire (convert (c.tree ty x)) = some (lpLinkJson { c with var := x c.var })) := by
  simp only [List.forall_mem_cons, List.not_mem_nil, false_imp_iff, implies_true, and_true, ← sendable_converted]
  by_cases h1 : sendable (ty "cost").converted = true <;> by_cases h2 : sendable (ty "quantity").converted = true <;>
    simp [LPLink.tree, convert, copy_num, copy_var, copy_str, wire, wireEntries, wireEntry, lpLinkJson, h1, h2,
      show sendable .float = true from rfl]

theorem LPStorage.wire_tree (ty : String → NumType) (x : Var → ℚ) (c : LPStorage Var) :
    ((wire (convert (c.tree ty x))).isSome ↔
        ∀ f ∈ ["capacity", "flow_in", "flow_out", "cost", "init_capacity", "eff"], ty f ≠ .other) ∧
      ((∀ f ∈ ["capacity", "flow_in", "flow_out", "cost", "init_capacity", "eff"], ty f ≠ .other) →
        wire (convert (c.tree ty x)) = some (lpStorJson { c with
          varCapacity := x c.varCapacity, varFlowIn := x c.varFlowIn, varFlowOut := x c.varFlowOut })) := by
  simp only [List.forall_mem_cons, List.not_mem_nil, false_imp_iff, implies_true, and_true, ← sendable_converted]
  constructor
  · simp only [LPStorage.tree, convert, wire, Option.isSome_map, wireEntries_isSome, copyEntries_eq, List.map_cons,
      List.map_nil, List.forall_mem_cons, List.not_mem_nil, false_imp_iff, implies_true, and_true, copy_num, copy_var,
      copy_str, Option.isSome_some, true_and]
    have : ∀ (b : Bool) (q : ℚ), ((if b = true then some (Json.num q) else none).isSome = true) ↔ b = true := by
      intro b q; cases b <;> simp
    simp only [this]
    simp only [show sendable .float = true from rfl, true_and]
  · rintro ⟨h1, h2, h3, h4, h5, h6⟩
    simp [LPStorage.tree, convert, copy_num, copy_var, copy_str, wire, wireEntries, wireEntry, lpStorJson, h1, h2, h3, h4,
      h5, h6, show sendable .float = true from rfl]

theorem LPConverter.wire_tree {ty : Types} (x : Var → ℚ) {name : String} {c : LPConverter Var}
    (h : (∀ f ∈ ["cost", "max"], ty (.conv name) f ≠ .other) ∧
      ∀ q ∈ c.srcRatios, ty (.src name q.1) "ratio" ≠ .other) :
    wire (convert (c.tree ty x name)) = some (lpConvJson x c) := by
  simp only [List.forall_mem_cons, List.not_mem_nil, false_imp_iff, implies_true, and_true, ← sendable_converted] at h
  obtain ⟨⟨h1, h2⟩, h3⟩ := h
  have e1 := wire_ofList (l := c.srcRatios) (k := fun p => joinKey p.1)
    (f := fun p => .num (ty (.src name p.1) "ratio").converted p.2) (g := fun p => .num p.2)
    fun p hp => by simp [wire, h3 p hp]
  have e2 := wire_ofList (l := c.varFlowSrc) (k := fun p => joinKey p.1)
    (f := fun p => .num .float (x p.2)) (g := fun p => .num (x p.2)) fun p hp => by simp [wire, sendable]
  have c1 : copy (.tdict (c.srcRatios.map fun p => (p.1, .num (ty (.src name p.1) "ratio") p.2))) =
      .dict (Dict.ofList (c.srcRatios.map fun p => (joinKey p.1, .num (ty (.src name p.1) "ratio").converted p.2))) := by
    simp [copy, List.map_map, Function.comp_def]
  have c2 : copy (.tdict (c.varFlowSrc.map fun p => (p.1, .var (x p.2)))) =
      .dict (Dict.ofList (c.varFlowSrc.map fun p => (joinKey p.1, .num .float (x p.2)))) := by
    simp [copy, List.map_map, Function.comp_def]
  simp [LPConverter.tree, convert, copy_num, copy_var, copy_str, c1, c2, wire, wireEntries, wireEntry, e1, e2, lpConvJson,
    h1, h2, show sendable .float = true from rfl]

/-- when no two sources have the same text, every ratio is in the answer -/
theorem LPConverter.wire_tree_only {ty : Types} {x : Var → ℚ} {name : String} {c : LPConverter Var}
    (hd : (c.srcRatios.map fun q => joinKey q.1).Nodup) (h : (wire (convert (c.tree ty x name))).isSome) :
    (∀ f ∈ ["cost", "max"], ty (.conv name) f ≠ .other) ∧
      ∀ q ∈ c.srcRatios, ty (.src name q.1) "ratio" ≠ .other := by
  have c1 : copy (.tdict (c.srcRatios.map fun p => (p.1, .num (ty (.src name p.1) "ratio") p.2))) =
      .dict (c.srcRatios.map fun p => (joinKey p.1, .num (ty (.src name p.1) "ratio").converted p.2)) := by
    simp only [copy, copyTEntries_eq, List.map_map, Function.comp_def]
    rw [Dict.ofList_of_nodup (by simpa [List.map_map, Function.comp_def] using hd)]
  have b : ∀ (b : Bool) (q : ℚ), ((if b = true then some (Json.num q) else none).isSome = true) ↔ b = true := by
    intro b q; cases b <;> simp
  simp only [LPConverter.tree, convert, wire, Option.isSome_map, wireEntries_isSome, copyEntries_eq, List.map_cons,
    List.map_nil, List.forall_mem_cons, List.not_mem_nil, false_imp_iff, implies_true, and_true, copy_num, c1, b,
    List.forall_mem_map] at h ⊢
  simp only [sendable_converted] at h
  exact ⟨⟨h.2.2.2.2.2.2.1, h.2.2.2.2.2.2.2⟩, h.2.1⟩

/-- the types of the numbers of a node in the answer -/
def KnownLPNode (ty : Types) (g d : String) (n : LPNode Var) : Prop :=
  (∀ i < n.consumptions.length, ∀ f ∈ ["cost", "quantity"], ty (.cons g d i) f ≠ .other) ∧
  (∀ i < n.productions.length, ∀ f ∈ ["cost", "quantity"], ty (.prod g d i) f ≠ .other) ∧
  (∀ i < n.storages.length, ∀ f ∈ ["capacity", "flow_in", "flow_out", "cost", "init_capacity", "eff"],
    ty (.stor g d i) f ≠ .other) ∧
  (∀ i < n.links.length, ∀ f ∈ ["cost", "quantity"], ty (.link g d i) f ≠ .other)

theorem forall_zipIdx {α : Type} (l : List α) (P : ℕ → Prop) : (∀ p ∈ l.zipIdx, P p.2) ↔ ∀ i < l.length, P i := by
  constructor
  · intro h i hi
    exact h (l[i], i) (List.mem_zipIdx_iff_getElem?.mpr (List.getElem?_eq_getElem hi))
  · intro h p hp
    exact h _ (List.getElem?_eq_some_iff.mp (List.mem_zipIdx_iff_getElem?.mp hp)).1

theorem LPNode.wire_tree (ty : Types) (x : Var → ℚ) (g d : String) (n : LPNode Var) :
    ((wire (convert (n.tree ty x g d))).isSome ↔ KnownLPNode ty g d n) ∧
      (KnownLPNode ty g d n → wire (convert (n.tree ty x g d)) = some (lpNodeJson (n.received x))) := by
  constructor
  · simp only [LPNode.tree, convert, wire, Option.isSome_map, wireEntries_isSome, convertEntries_eq, List.map_cons,
      List.map_nil, List.forall_mem_cons, List.not_mem_nil, false_imp_iff, implies_true, and_true, convertAll_eq,
      wireAll_isSome, List.forall_mem_map, (LPConsumption.wire_tree _ x _).1, (LPProduction.wire_tree _ x _).1,
      (LPStorage.wire_tree _ x _).1, (LPLink.wire_tree _ x _).1]
    unfold KnownLPNode
    rw [← forall_zipIdx n.consumptions, ← forall_zipIdx n.productions, ← forall_zipIdx n.storages,
      ← forall_zipIdx n.links]
    simp only [List.forall_mem_cons, List.not_mem_nil, false_imp_iff, implies_true, and_true]
  · rintro ⟨h1, h2, h3, h4⟩
    have e1 := wireAll_map (l := n.consumptions.zipIdx) (f := fun p => convert (p.1.tree (ty (.cons g d p.2)) x))
      (g := fun p => lpConsJson { p.1 with var := x p.1.var }) fun p hp =>
        (LPConsumption.wire_tree _ x _).2 ((forall_zipIdx n.consumptions _).mpr h1 p hp)
    have e2 := wireAll_map (l := n.productions.zipIdx) (f := fun p => convert (p.1.tree (ty (.prod g d p.2)) x))
      (g := fun p => lpProdJson { p.1 with var := x p.1.var }) fun p hp =>
        (LPProduction.wire_tree _ x _).2 ((forall_zipIdx n.productions _).mpr h2 p hp)
    have e3 := wireAll_map (l := n.storages.zipIdx) (f := fun p => convert (p.1.tree (ty (.stor g d p.2)) x))
      (g := fun p => lpStorJson { p.1 with
          varCapacity := x p.1.varCapacity, varFlowIn := x p.1.varFlowIn, varFlowOut := x p.1.varFlowOut })
      fun p hp => (LPStorage.wire_tree _ x _).2 ((forall_zipIdx n.storages _).mpr h3 p hp)
    have e4 := wireAll_map (l := n.links.zipIdx) (f := fun p => convert (p.1.tree (ty (.link g d p.2)) x))
      (g := fun p => lpLinkJson { p.1 with var := x p.1.var }) fun p hp =>
        (LPLink.wire_tree _ x _).2 ((forall_zipIdx n.links _).mpr h4 p hp)
    rw [zipIdx_map_of _ fun c : LPConsumption Var => lpConsJson { c with var := x c.var }] at e1
    rw [zipIdx_map_of _ fun c : LPProduction Var => lpProdJson { c with var := x c.var }] at e2
    rw [zipIdx_map_of _ fun c : LPStorage Var => lpStorJson { c with
          varCapacity := x c.varCapacity, varFlowIn := x c.varFlowIn, varFlowOut := x c.varFlowOut }] at e3
    rw [zipIdx_map_of _ fun c : LPLink Var => lpLinkJson { c with var := x c.var }] at e4
    simp only [LPNode.tree, convert, convertEntries_eq, List.map_cons, List.map_nil, convertAll_eq, List.map_map,
      Function.comp_def, wire, wireEntries, wireEntry, e1, e2, e3, e4, Option.map_some, lpNodeJson, LPNode.received]

/-- the types of the numbers of a time step in the answer -/
def KnownStep (ty : Types) (ts : LPTimeStep Var) : Prop :=
  (∀ p ∈ ts.networks, ∀ q ∈ p.2, KnownLPNode ty p.1 q.1 q.2) ∧
  ∀ p ∈ ts.converters, (∀ f ∈ ["cost", "max"], ty (.conv p.1) f ≠ .other) ∧
    ∀ q ∈ p.2.srcRatios, ty (.src p.1 q.1) "ratio" ≠ .other

theorem LPTimeStep.wire_tree {ty : Types} (x : Var → ℚ) {ts : LPTimeStep Var} (h : KnownStep ty ts) :
    wire (convert (ts.tree ty x)) = some (lpStepJson x ts) := by
  have e1 := wireEntries_map (l := ts.networks) (k := Prod.fst) (f := fun p => PyTree.dict [("nodes",
      .dict (p.2.map fun q => (q.1, convert (q.2.tree ty x p.1 q.1))))])
      (g := fun p => .obj [("nodes", .obj (p.2.map fun q => (q.1, lpNodeJson (q.2.received x))))]) fun p hp => by
        have := wireEntries_map (l := p.2) (k := Prod.fst) (f := fun q => convert (q.2.tree ty x p.1 q.1))
          (g := fun q => lpNodeJson (q.2.received x)) fun q hq => (LPNode.wire_tree ty x _ _ _).2 (h.1 p hp q hq)
        simp [wire, wireEntries, wireEntry, this]
  have e2 := wireEntries_map (l := ts.converters) (k := Prod.fst) (f := fun p => convert (p.2.tree ty x p.1))
    (g := fun p => lpConvJson x p.2) fun p hp => LPConverter.wire_tree x (h.2 p hp)
  simp only [LPTimeStep.tree, convert, convertEntries_eq, List.map_cons, List.map_nil, List.map_map,
    Function.comp_def, wire, wireEntries, wireEntry, e1, e2, Option.map_some, lpStepJson]

theorem LPTimeStep.wire_tree_only {ty : Types} {x : Var → ℚ} {ts : LPTimeStep Var}
    (hd : ∀ p ∈ ts.converters, (p.2.srcRatios.map fun q => joinKey q.1).Nodup)
    (h : (wire (convert (ts.tree ty x))).isSome) : KnownStep ty ts := by
  simp only [LPTimeStep.tree, convert, wire, Option.isSome_map, wireEntries_isSome, convertEntries_eq, List.map_cons,
    List.map_nil, List.forall_mem_cons, List.not_mem_nil, false_imp_iff, implies_true, and_true,
    List.forall_mem_map, (LPNode.wire_tree _ x _ _ _).1] at h
  exact ⟨h.1, fun p hp => LPConverter.wire_tree_only (hd p hp) (h.2 p hp)⟩

/-! ### The result -/

theorem wire_array (t : NumType) (a : NdArray) : wire (convert (.nd t a)) = some (Json.ofNd a) := by
  simp [convert, tolist, wire_tolistAux, Json.ofNd]

theorem OutputConverter.wire_tree (ty : Types) (name : String) (c : OutputConverter) :
    wire (convert (c.tree ty name)) = some c.toJson := by
  have e := wire_ofList (l := c.flowSrc) (k := fun p => joinKey p.1)
    (f := fun p => convert (.nd (ty (.src name p.1) "flow_src") p.2)) (g := fun p => Json.ofNd p.2)
    fun p _ => wire_array _ _
  have h : ∀ k t (a : NdArray), joinTuples (k, convert (.nd t a)) = (k, convert (.nd t a)) := by
    intro k t a
    obtain ⟨sh, l, wf⟩ := a
    cases sh with
    | nil => cases l <;> simp [convert, tolist, tolistAux, joinTuples]
    | cons n sh => simp [convert, tolist, tolistAux, joinTuples]
  simp only [OutputConverter.tree, convert.eq_2, convertEntries_eq, List.map_cons, List.map_nil, h]
  rw [convert.eq_6]
  simp [joinTuples, OutputConverter.toJson, wire, wireEntries, wireEntry, List.map_map, Function.comp_def, e,
    wire_array, convert.eq_11]

theorem OutputNode.wire_tree (ty : Types) (g d : String) (n : OutputNode) :
    wire (convert (n.tree ty g d)) = some n.toJson := by
  have e1 := wireAll_map (l := n.consumptions.zipIdx) (f := fun p => convert (p.1.tree (ty (.cons g d p.2) "quantity")))
    (g := fun p => p.1.toJson) fun p _ => by
      simp [OutputConsumption.tree, OutputConsumption.toJson, convert, wire, wireEntries, wireEntry, tolist,
        wire_tolistAux, Json.ofNd]
  have e2 := wireAll_map (l := n.productions.zipIdx) (f := fun p => convert (p.1.tree (ty (.prod g d p.2) "quantity")))
    (g := fun p => p.1.toJson) fun p _ => by
      simp [OutputProduction.tree, OutputProduction.toJson, convert, wire, wireEntries, wireEntry, tolist,
        wire_tolistAux, Json.ofNd]
  have e3 := wireAll_map (l := n.storages.zipIdx) (f := fun p => convert (p.1.tree (ty (.stor g d p.2))))
    (g := fun p => p.1.toJson) fun p _ => by
      simp [OutputStorage.tree, OutputStorage.toJson, convert, wire, wireEntries, wireEntry, tolist,
        wire_tolistAux, Json.ofNd]
  have e4 := wireAll_map (l := n.links.zipIdx) (f := fun p => convert (p.1.tree (ty (.link g d p.2) "quantity")))
    (g := fun p => p.1.toJson) fun p _ => by
      simp [OutputLink.tree, OutputLink.toJson, convert, wire, wireEntries, wireEntry, tolist,
        wire_tolistAux, Json.ofNd]
  rw [zipIdx_map_of _ OutputConsumption.toJson] at e1
  rw [zipIdx_map_of _ OutputProduction.toJson] at e2
  rw [zipIdx_map_of _ OutputStorage.toJson] at e3
  rw [zipIdx_map_of _ OutputLink.toJson] at e4
  simp only [OutputNode.tree, convert, convertEntries_eq, List.map_cons, List.map_nil, convertAll_eq, List.map_map,
    Function.comp_def, wire, wireEntries, wireEntry, e1, e2, e3, e4, Option.map_some, OutputNode.toJson]

theorem Benchmark.wire_tree (b : Benchmark) : wire (convert b.tree) = some b.toJson := by
  have h : ∀ l : List ℚ, wireAll (l.map fun q => convert (.num .float q)) = some (l.map .num) := fun l =>
    wireAll_map fun q _ => by simp [convert, NumType.converted, wire, sendable]
  simp only [convert, show NumType.converted .float = .float from rfl] at h
  simp only [Benchmark.tree, convert, convertEntries_eq, List.map_cons, List.map_nil, convertAll_eq, List.map_map,
    Function.comp_def, show NumType.converted .float = .float from rfl]
  simp [wire, wireEntries, wireEntry, h, Benchmark.toJson, NumType.converted, sendable]

theorem Result.wire_tree (ty : Types) (r : Result) : wire (convert (r.tree ty)) = some r.toJson := by
  have e1 := wireEntries_map (l := r.networks) (k := Prod.fst) (f := fun p => PyTree.dict [("nodes",
      .dict (p.2.nodes.map fun q => (q.1, convert (q.2.tree ty p.1 q.1))))])
      (g := fun p => p.2.toJson) fun p _ => by
        have := wireEntries_map (l := p.2.nodes) (k := Prod.fst) (f := fun q => convert (q.2.tree ty p.1 q.1))
          (g := fun q => q.2.toJson) fun q _ => OutputNode.wire_tree ty _ _ _
        simp [wire, wireEntries, wireEntry, this, OutputNetwork.toJson]
  have e2 := wireEntries_map (l := r.converters) (k := Prod.fst) (f := fun p => convert (p.2.tree ty p.1))
    (g := fun p => p.2.toJson) fun p _ => OutputConverter.wire_tree ty _ _
  simp only [Result.tree, convert, convertEntries_eq, List.map_cons, List.map_nil, List.map_map,
    Function.comp_def, wire, wireEntries, wireEntry, e1, e2, Option.map_some, Result.toJson, Benchmark.wire_tree]

end Hadar
