import Verif.Proofs.Fluent
import Verif.Spec.Refusals

/-! # Which exception a refused call raises: lemmas -/

namespace Hadar

open Spec World

variable {σ α β : Type}

/-- what `m` raises satisfies `P` -/
def PyM.Raises (P : PyErr → Prop) (m : PyM σ α) (s : σ) : Prop := ∀ e, (m s).1 = .error e → P e

theorem PyM.Raises.bind {P : PyErr → Prop} {m : PyM σ α} {f : α → PyM σ β} {s : σ} (h : m.Raises P s)
    (h' : ∀ a s', m s = (.ok a, s') → (f a).Raises P s') : (m >>= f).Raises P s := by
  intro e he
  rw [PyM.bind_run] at he
  cases hm : m s with
  | mk r s' =>
    rw [hm] at he
    cases r with
    | error e' => cases he; exact h _ (by rw [hm])
    | ok a => exact h' a s' hm e he

theorem PyM.Raises.pure {P : PyErr → Prop} (a : α) (s : σ) : PyM.Raises P (Pure.pure a : PyM σ α) s := fun _ h => nomatch h

theorem PyM.Raises.modify {P : PyErr → Prop} (f : σ → σ) (s : σ) : PyM.Raises P (PyM.modify f) s := fun _ h => nomatch h

theorem PyM.Raises.get {P : PyErr → Prop} (s : σ) : PyM.Raises P (PyM.get : PyM σ σ) s := fun _ h => nomatch h

theorem PyM.Raises.raise {P : PyErr → Prop} {e : PyErr} (h : P e) (s : σ) : PyM.Raises P (PyM.raise e : PyM σ α) s := by
  intro e' he; cases he; exact h

theorem PyM.Raises.lift {P : PyErr → Prop} {x : Except PyErr α} (h : ∀ e, x = .error e → P e) (s : σ) : PyM.Raises P (PyM.lift x) s :=
  h

theorem PyM.Raises.jump {P : PyErr → Prop} {p : Prop} [Decidable p] {e : PyErr} {f : Unit → PyM σ α} {s : σ} (h : P e)
    (h' : ¬ p → (f ()).Raises P s) : PyM.Raises P (if p then PyM.raise e >>= f else f ()) s := by
  split
  · exact .bind (.raise h s) fun _ _ h => nomatch h
  next hp => exact h' hp

/-- what is raised for wrong data -/
def DataError (data : List Raw) (e : PyErr) : Prop := e = .valueError ∨ e = .indexError ∧ ∃ r ∈ data, NoDimension r

theorem ofArray_raises (f : Factory) (a : NdArray) {e : PyErr} (h : f.ofArray a = .error e) :
    e = .valueError ∨ e = .indexError ∧ a.shape = [] := by
  unfold Factory.ofArray at h
  split at h; · cases h
  split at h; · cases h
  split at h; · cases h
  split at h
  next h0 => cases h; exact .inr ⟨rfl, h0⟩
  · cases h; exact .inl rfl

theorem stackRows_shape {rows : List (List ℕ × List ℚ)} {sh : List ℕ} {d : List ℚ} (h : Json.stackRows rows = some (sh, d)) : sh ≠ [] := by
  unfold Json.stackRows at h
  split at h
  · cases h; simp
  · split at h <;> cases h
    simp

theorem ofJson_raises (f : Factory) (j : Json) {e : PyErr} (h : f.ofJson j = .error e) : e = .valueError := by
  cases j with
  | arr l =>
    simp only [Factory.ofJson, Json.toNd, bind, Except.bind] at h
    split at h
    next e' he =>
      split at he
      · split at he <;> cases he
        cases h; rfl
      · cases he; cases h; rfl
    next a ha =>
      split at ha
      next sh d hnd =>
        split at ha <;> cases ha
        rcases ofArray_raises f _ h with h | ⟨_, h⟩
        · exact h
        · exfalso
          rw [Json.nd?] at hnd
          split at hnd
          · exact stackRows_shape hnd h
          · cases hnd
      · cases ha
  | _ => first | (cases h; done) | (cases h; rfl)

theorem create_raises (f : Factory) (r : Raw) {e : PyErr} (h : f.create r = .error e) :
    e = .valueError ∨ e = .indexError ∧ NoDimension r := by
  cases r with
  | num q => cases h
  | val v => cases h
  | other => cases h; exact .inl rfl
  | array a => exact (ofArray_raises f a h).imp id fun h => ⟨h.1, a, rfl, h.2⟩
  | json j =>
    left
    cases j with
    | obj o =>
      simp only [Factory.create] at h
      split at h
      · exact ofJson_raises f _ h
      · cases h; rfl
    | _ => simp only [Factory.create] at h; exact ofJson_raises f _ h

namespace Study

theorem create_data {data : List Raw} {r : Raw} (hr : r ∈ data) (s : Study) : (create r).Raises (DataError data) s := by
  intro e he
  have : s.factory.create r = .error e := by simpa [create] using he
  exact (create_raises _ r this).imp id fun h => ⟨h.1, r, hr, h.2⟩

theorem create_state {r : Raw} {s s' : Study} {v : NumVal} (h : create r s = (.ok v, s')) : s' = s := by
  simp [create] at h
  exact h.2.symm

theorem node_get {g d : String} {s : Study} {n : InputNode} (hi : StudyInv s) (h : HasNode s g d n) :
    ∃ net, s.networks.get? g = some net ∧ net.nodes.get? d = some n := by
  obtain ⟨net, h1, h2⟩ := h
  exact ⟨net, Dict.get?_of_mem hi.names.networks h1, Dict.get?_of_mem (hi.names.nodes _ h1) h2⟩

theorem getNode_run {g d : String} {s : Study} {n : InputNode} (hi : StudyInv s) (h : HasNode s g d n) :
    getNode g d s = (.ok n, s) := by
  obtain ⟨net, h1, h2⟩ := node_get hi h
  simp [getNode, Dict.getE, h1, h2]

theorem addConsumption_raises {g d name : String} {c q : Raw} {s : Study} {n : InputNode} (hi : StudyInv s) (h : HasNode s g d n) :
    (addConsumption g d name c q).Raises (DataError [c, q]) s := by
  unfold addConsumption
  refine .bind (fun e he => by rw [getNode_run hi h] at he; cases he) fun a s' h' => ?_
  rw [getNode_run hi h] at h'
  cases h'
  refine PyM.Raises.jump (.inl rfl) fun _ => ?_
  refine .bind (create_data (by simp) _) fun _ _ h' => ?_
  obtain rfl := create_state h'
  refine PyM.Raises.jump (.inl rfl) fun _ => ?_
  refine .bind (create_data (by simp) _) fun _ _ h' => ?_
  exact .modify _ _

theorem addProduction_raises {g d name : String} {c q : Raw} {s : Study} {n : InputNode} (hi : StudyInv s) (h : HasNode s g d n) :
    (addProduction g d name c q).Raises (DataError [c, q]) s := by
  unfold addProduction
  refine .bind (fun e he => by rw [getNode_run hi h] at he; cases he) fun a s' h' => ?_
  rw [getNode_run hi h] at h'
  cases h'
  refine PyM.Raises.jump (.inl rfl) fun _ => ?_
  refine .bind (create_data (by simp) _) fun _ _ h' => ?_
  obtain rfl := create_state h'
  refine PyM.Raises.jump (.inl rfl) fun _ => ?_
  refine .bind (create_data (by simp) _) fun _ _ h' => ?_
  exact .modify _ _

theorem addStorage_raises {g d : String} {a : StorageArgs} {s : Study} {n : InputNode} (hi : StudyInv s) (h : HasNode s g d n) :
    (addStorage g d a).Raises (DataError [a.capacity, a.flowIn, a.flowOut, a.cost, a.eff]) s := by
  unfold addStorage
  refine .bind (fun e he => by rw [getNode_run hi h] at he; cases he) fun a s' h' => ?_
  rw [getNode_run hi h] at h'
  cases h'
  refine PyM.Raises.jump (.inl rfl) fun _ => ?_
  refine .bind (create_data (by simp) _) fun _ _ h' => ?_
  refine .bind (create_data (by simp) _) fun _ _ h' => ?_
  refine PyM.Raises.jump (.inl rfl) fun _ => ?_
  refine .bind (create_data (by simp) _) fun _ _ h' => ?_
  refine PyM.Raises.jump (.inl rfl) fun _ => ?_
  refine .bind (create_data (by simp) _) fun _ _ h' => ?_
  refine PyM.Raises.jump (.inl rfl) fun _ => ?_
  refine .bind (create_data (by simp) _) fun _ _ h' => ?_
  exact .modify _ _

theorem addLink_raises {g src dest : String} {c q : Raw} {s : Study} (hg : ∃ net, s.networks.get? g = some net) :
    (addLink g src dest c q).Raises (DataError [c, q]) s := by
  obtain ⟨net, hg⟩ := hg
  unfold addLink
  refine .bind (.get _) fun a s' h' => ?_
  cases h'
  refine .bind (.lift (fun e he => by simp [Dict.getE, hg] at he) _) fun a s' h' => ?_
  simp [Dict.getE, hg] at h'
  obtain ⟨rfl, rfl⟩ := h'
  refine PyM.Raises.jump (.inl rfl) fun hsrc => ?_
  refine PyM.Raises.jump (.inl rfl) fun _ => ?_
  refine .bind (fun e he => ?_) fun a s' h' => ?_
  · rw [not_not] at hsrc
    cases hn : net.nodes.get? src with
    | none => exact absurd ((Dict.contains_iff _ _).1 hsrc) ((Dict.get?_eq_none_iff _ _).1 hn)
    | some n => simp [getNode, Dict.getE, hg, hn] at he
  refine PyM.Raises.jump (.inl rfl) fun _ => ?_
  refine .bind (create_data (by simp) _) fun _ _ h' => ?_
  refine PyM.Raises.jump (.inl rfl) fun _ => ?_
  refine .bind (create_data (by simp) _) fun _ _ h' => ?_
  exact .modify _ _

theorem conv_get {name : String} {s : Study} (hc : name ∈ s.converters.map Prod.fst) : ∃ c, s.converters.get? name = some c := by
  cases h : s.converters.get? name with
  | none => exact absurd hc ((Dict.get?_eq_none_iff _ _).1 h)
  | some c => exact ⟨c, rfl⟩

theorem addConverterSrc_raises {name g d : String} {r : Raw} {s : Study} (hc : name ∈ s.converters.map Prod.fst) :
    (addConverterSrc name g d r).Raises (DataError [r]) s := by
  obtain ⟨c, hc⟩ := conv_get hc
  unfold addConverterSrc
  refine .bind (.get _) fun a s' h' => ?_
  cases h'
  refine .bind (.lift (fun e he => by simp [Dict.getE, hc] at he) _) fun a s' h' => ?_
  refine PyM.Raises.jump (.inl rfl) fun _ => ?_
  refine .bind (create_data (by simp) _) fun _ _ h' => ?_
  exact .modify _ _

theorem setConverterDest_raises {name g d : String} {c q : Raw} {s : Study} (hc : name ∈ s.converters.map Prod.fst) :
    (setConverterDest name g d c q).Raises (DataError [c, q]) s := by
  obtain ⟨c0, hc⟩ := conv_get hc
  unfold setConverterDest
  refine .bind (.get _) fun a s' h' => ?_
  cases h'
  refine .bind (.lift (fun e he => by simp [Dict.getE, hc] at he) _) fun a s' h' => ?_
  refine PyM.Raises.jump (.inl rfl) fun _ => ?_
  have hgo : ∀ s', PyM.Raises (DataError [c, q]) (do
      PyM.modify fun s => s.updConv name fun c => { c with destNetwork := g }
      PyM.modify fun s => s.updConv name fun c => { c with destNode := d }
      let cost ← create c
      PyM.modify fun s => s.updConv name fun c => { c with cost := .val cost }
      let max ← create q
      PyM.modify fun s => s.updConv name fun c => { c with max := .val max }) s' := fun s' =>
    .bind (.modify _ _) fun _ _ _ => .bind (.modify _ _) fun _ _ _ => .bind (create_data (by simp) _) fun _ _ _ =>
      .bind (.modify _ _) fun _ _ _ => .bind (create_data (by simp) _) fun _ _ _ => .modify _ _
  cases hg : s.networks.get? g with
  | none =>
    simp only [hg]
    exact .bind (.raise (.inl rfl) _) fun _ _ h => nomatch h
  | some net =>
    simp only [hg]
    exact PyM.Raises.jump (.inl rfl) fun _ => hgo _

theorem addConverter_has (name : String) (s : Study) : name ∈ ((addConverter name s).2.converters.map Prod.fst) := by
  rw [addConverter_run]
  by_cases h : name ∈ s.converters.keys
  · rw [if_pos h]; exact h
  · rw [if_neg h]
    simp

end Study

theorem net_get {g : String} {s : Study} (h : g ∈ s.networks.map Prod.fst) : ∃ net, s.networks.get? g = some net := by
  cases hg : s.networks.get? g with
  | none => exact absurd h ((Dict.get?_eq_none_iff _ _).1 hg)
  | some c => exact ⟨c, rfl⟩

theorem onStudy_raises {P : PyErr → Prop} {m : PyM Study α} {w : World} (h : m.Raises P w.study) : (onStudy m).Raises P w := by
  intro e he
  exact h e he

theorem addNode_raises {P : PyErr → Prop} {g d : String} {s : Study} (hg : g ∈ s.networks.map Prod.fst) : (Study.addNode g d).Raises P s := by
  obtain ⟨net, hg⟩ := net_get hg
  intro e he
  rcases Study.addNode_run g d s with ⟨h, _⟩ | ⟨_, _, h⟩
  · rw [hg] at h; cases h
  · rw [h] at he; cases he

theorem addNetwork_raises {P : PyErr → Prop} {g : String} {s : Study} : (Study.addNetwork g).Raises P s := by
  intro e he
  rw [Study.addNetwork_run] at he
  cases he

theorem addConverter_raises {P : PyErr → Prop} {g : String} {s : Study} : (Study.addConverter g).Raises P s := by
  intro e he
  rw [Study.addConverter_run] at he
  cases he

/-- a handle of a network -/
theorem selNetwork_cases {ref : ℕ} {w : World} (h : ref < w.heap.length) :
    (∃ o, w.heap[ref]? = some ⟨none, o⟩ ∧ selNetwork ref w = (.error .keyError, w)) ∨
    ∃ g o, w.heap[ref]? = some ⟨some g, o⟩ ∧ selNetwork ref w = (.ok g, w) := by
  rcases hs : w.heap[ref] with ⟨g, o⟩
  have hs' : w.heap[ref]? = some ⟨g, o⟩ := by rw [List.getElem?_eq_getElem h, hs]
  cases g with
  | none => exact .inl ⟨o, hs', by simp [selNetwork, selOf, hs']⟩
  | some g => exact .inr ⟨g, o, hs', by simp [selNetwork, selOf, hs']⟩

/-- a handle of a node -/
theorem selBoth_cases {ref : ℕ} {w : World} (h : ref < w.heap.length) (f : String → String → PyM World Handle) :
    (∃ sel, w.heap[ref]? = some sel ∧ (sel.network = none ∨ sel.node = none) ∧
      (do let g ← selNetwork ref; let d ← selNode ref; f g d) w = (.error .keyError, w)) ∨
    ∃ g d, w.heap[ref]? = some ⟨some g, some d⟩ ∧ (do let g ← selNetwork ref; let d ← selNode ref; f g d) w = f g d w := by
  rcases hs : w.heap[ref] with ⟨g, d⟩
  have hs' : w.heap[ref]? = some ⟨g, d⟩ := by rw [List.getElem?_eq_getElem h, hs]
  cases g with
  | none => exact .inl ⟨_, hs', .inl rfl, by simp [selNetwork, selOf, hs']⟩
  | some g =>
    cases d with
    | none => exact .inl ⟨_, hs', .inr rfl, by simp [selNetwork, selNode, selOf, hs']⟩
    | some d => exact .inr ⟨g, d, hs', by simp [selNetwork, selNode, selOf, hs']⟩

end Hadar
