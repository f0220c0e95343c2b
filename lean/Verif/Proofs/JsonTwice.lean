import Verif.Spec.JsonTwice
import Verif.Proofs.Json

/-!
# Reading a result twice
-/

namespace Hadar

open Spec

theorem mapItems_left {K α : Type} {f : PyM Json α} {g : α → Json} {w : α → Json} {l : List (K × α)}
    (h : ∀ x ∈ l, (f (g x.2)).1 = .ok x.2) (h' : ∀ x ∈ l, (f (g x.2)).2 = w x.2) :
    (Json.mapItems f (l.map fun p => (p.1, g p.2))).2 = l.map fun p => (p.1, w p.2) := by
  induction l with
  | nil => rfl
  | cons x l ih =>
    have h1 := Json.mapItems_map (f := f) (g := g) (l := l) (fun y hy => h y (List.mem_cons_of_mem _ hy))
    have ih := ih (fun y hy => h y (List.mem_cons_of_mem _ hy)) (fun y hy => h' y (List.mem_cons_of_mem _ hy))
    have hx := h x (List.mem_cons_self ..)
    have hx' := h' x (List.mem_cons_self ..)
    simp only [List.map_cons, Json.mapItems]
    generalize f (g x.2) = y at hx hx' ⊢
    obtain ⟨r, j⟩ := y
    dsimp only at hx hx'
    subst hx hx'
    generalize Json.mapItems f (l.map fun p => (p.1, g p.2)) = res at h1 ih ⊢
    obtain ⟨r', js⟩ := res
    dsimp only at h1 ih
    subst h1 ih
    rfl

theorem network_left {x : OutputNetwork} (hx : ∀ p ∈ x.nodes, DenseNode p.2) (hn : (x.nodes.map Prod.fst).Nodup) :
    (Hadar.OutputNetwork.fromJson x.toJson).2 = OutputNetwork.left x := by
  unfold OutputNetwork.fromJson OutputNetwork.toJson
  rw [PyM.bind_run, Json.overItems_run (l := x.nodes) (g := OutputNode.toJson)
    (by simp [Dict.get?]) (fun c hc => OutputNode.roundtrip (hx c hc)) hn]
  simp [Dict.set, PyM.bind_run, Json.setItem, Json.kwargs, Dict.keys, OutputNetwork.left]

theorem converter_left {c : OutputConverter} (h1 : ∀ p ∈ c.flowSrc, Dense p.2)
    (h2 : Dense c.flowDest) (hn : (c.flowSrc.map Prod.fst).Nodup)
    (hc : ∀ k ∈ c.flowSrc.map Prod.fst, ∃ g d, k = [g, d] ∧ CleanPair g d) :
    (Hadar.OutputConverter.fromJson c.toJson).2 = OutputConverter.left c := by
  unfold OutputConverter.fromJson OutputConverter.toJson
  rw [PyM.bind_run, Json.overSplitItems_run (l := c.flowSrc) (g := Json.ofNd) (w := Json.ofNd)
    (by simp [Dict.get?]) (fun x hx => rfl) hn hc]
  simp [Json.kwargs, Dict.keys, Dict.set, Json.strOr, Json.asStr, Dict.get?,
    Json.setItem, Json.array_run (a := c.flowDest), h2, mapM_toNd h1, OutputConverter.left]

theorem benchmark_left (b : Benchmark) : (Benchmark.fromJson b.toJson).2 = b.toJson := by
  unfold Benchmark.fromJson Benchmark.toJson
  simp [Json.kwargs, Dict.keys, Json.numsOr_run (l := b.modeler), Json.numsOr_run (l := b.solver), Json.numOr, Dict.get?, Json.asNums_map, Json.asNum]

theorem result_left {r : Result} (h : ResultOk r) : (Hadar.Result.fromJson r.toJson).2 = Result.left r := by
  have e1 := mapItems_left (f := Hadar.OutputNetwork.fromJson) (g := OutputNetwork.toJson) (w := OutputNetwork.left) (l := r.networks)
    (fun p hp => OutputNetwork.roundtrip (h.dense p hp) (h.nodes p hp)) (fun p hp => network_left (h.dense p hp) (h.nodes p hp))
  have e2 := mapItems_left (f := Hadar.OutputConverter.fromJson) (g := OutputConverter.toJson) (w := OutputConverter.left)
    (l := r.converters)
    (fun p hp => OutputConverter.roundtrip (h.convDense p hp).1 (h.convDense p hp).2 (h.sources p hp) (h.keys p hp))
    (fun p hp => converter_left (h.convDense p hp).1 (h.convDense p hp).2 (h.sources p hp) (h.keys p hp))
  unfold Hadar.Result.fromJson Result.toJson
  rw [PyM.bind_run, Json.overItems_run (l := r.networks) (g := OutputNetwork.toJson)
    (by simp [Dict.get?])
    (fun p hp => OutputNetwork.roundtrip (h.dense p hp) (h.nodes p hp)) h.networks]
  simp only [Dict.set]
  rw [PyM.bind_run, Json.overItems_run (l := r.converters) (g := OutputConverter.toJson)
    (by simp [Dict.get?])
    (fun p hp => OutputConverter.roundtrip (h.convDense p hp).1 (h.convDense p hp).2
      (h.sources p hp) (h.keys p hp)) h.converters]
  simp [Dict.set, Result.onItem, Json.item, Dict.getE, Dict.get?, Benchmark.roundtrip, Json.setItem, benchmark_left, e1, e2, Result.left]

theorem node_native : (OutputNode.fromJson .native).1 = .error .typeError := rfl

/-- a network that has been read, read again -/
theorem network_again (x : OutputNetwork) : (Hadar.OutputNetwork.fromJson (OutputNetwork.left x)).1 =
    if x.nodes = [] then .ok x else .error .typeError := by
  obtain ⟨nodes⟩ := x
  cases nodes with
  | nil => rfl
  | cons p l => rfl

theorem converter_again {x : OutputConverter} (h : Dense x.flowDest) : (Hadar.OutputConverter.fromJson (OutputConverter.left x)).1 =
    if x.flowSrc = [] then .ok x else .error .attributeError := by
  obtain ⟨name, src, dest⟩ := x
  cases src with
  | nil =>
    unfold Hadar.OutputConverter.fromJson OutputConverter.left
    simp [Json.overSplitItems, Json.item, Dict.getE, Json.kwargs, Dict.keys, Dict.set, Json.strOr, Json.asStr, Dict.get?,
      Json.setItem]
    rw [show (pure [] : Except PyErr (List (List String × NdArray))) = .ok [] from rfl]
    dsimp only
    rw [Json.array_run (a := dest) (by simp [Dict.get?]) h]
  | cons p l => rfl

theorem mapItems_again {K α : Type} {f : PyM Json α} {w : α → Json} {P : α → Prop} [DecidablePred P] {e : PyErr} {l : List (K × α)}
    (h : ∀ x ∈ l, (f (w x.2)).1 = if P x.2 then .ok x.2 else .error e) :
    (Json.mapItems f (l.map fun p => (p.1, w p.2))).1 = if ∀ x ∈ l, P x.2 then .ok l else .error e := by
  induction l with
  | nil => rfl
  | cons x l ih =>
    have ih := ih (fun y hy => h y (List.mem_cons_of_mem _ hy))
    have hx := h x (List.mem_cons_self ..)
    simp only [List.map_cons, Json.mapItems, List.forall_mem_cons]
    generalize f (w x.2) = y at hx ⊢
    obtain ⟨r, j⟩ := y
    dsimp only at hx
    generalize Json.mapItems f (l.map fun p => (p.1, w p.2)) = res at ih ⊢
    obtain ⟨r', js⟩ := res
    dsimp only at ih
    subst hx ih
    by_cases h1 : P x.2 <;> by_cases h2 : ∀ y ∈ l, P y.2
    · rw [if_pos h1, if_pos h2, if_pos ⟨h1, h2⟩]
    · rw [if_pos h1, if_neg h2, if_neg (fun h => h2 h.2)]
    · have hn : ¬ (P x.2 ∧ ∀ y ∈ l, P y.2) := fun h => h1 h.1
      rw [if_neg h1, if_neg hn]
    · have hn : ¬ (P x.2 ∧ ∀ y ∈ l, P y.2) := fun h => h1 h.1
      rw [if_neg h1, if_neg hn]

theorem result_again {r : Result} (h : ResultOk r) : (Hadar.Result.fromJson (Result.left r)).1 = Result.secondReading r := by
  have e1 := mapItems_again (f := Hadar.OutputNetwork.fromJson) (w := OutputNetwork.left) (l := r.networks)
    (P := fun x => x.nodes = []) (fun x _ => network_again x.2)
  have e2 := mapItems_again (f := Hadar.OutputConverter.fromJson) (w := OutputConverter.left) (l := r.converters)
    (P := fun x => x.flowSrc = []) (fun x hx => converter_again (h.convDense x hx).2)
  unfold Hadar.Result.fromJson Result.left Result.secondReading
  have hne : (∃ p ∈ r.networks, p.2.nodes ≠ []) ↔ ¬ ∀ p ∈ r.networks, p.2.nodes = [] := by push_neg; rfl
  have hne' : (∃ p ∈ r.converters, p.2.flowSrc ≠ []) ↔ ¬ ∀ p ∈ r.converters, p.2.flowSrc = [] := by push_neg; rfl
  simp only [hne, hne', ite_not]
  by_cases h1 : ∀ p ∈ r.networks, p.2.nodes = [] <;> by_cases h2 : ∀ p ∈ r.converters, p.2.flowSrc = []
  · rw [if_pos h1] at e1 ⊢
    rw [if_pos h2] at e2 ⊢
    simp [Json.overItems, Json.item, Dict.getE, Dict.get?, e1, Json.setItem, Except.map, Dict.ofList_of_nodup h.networks,
      Dict.set, e2, Dict.ofList_of_nodup h.converters, Result.onItem, Benchmark.roundtrip]
  · rw [if_pos h1] at e1 ⊢
    rw [if_neg h2] at e2 ⊢
    simp [Json.overItems, Json.item, Dict.getE, Dict.get?, e1, Json.setItem, Except.map, Dict.ofList_of_nodup h.networks,
      Dict.set, e2]
  · rw [if_neg h1] at e1 ⊢
    simp [Json.overItems, Json.item, Dict.getE, Dict.get?, e1, Json.setItem, Except.map]
  · rw [if_neg h1] at e1 ⊢
    simp [Json.overItems, Json.item, Dict.getE, Dict.get?, e1, Json.setItem, Except.map]

end Hadar
