import Verif.Proofs.Refusals
import Verif.Props.Study

/-!
# C125: which exception a refused call raises
-/

namespace Hadar.Props

open Hadar Spec World

/-- the three kinds -/
theorem refusal {w : World} (hi : WorldInv w) {c : Call} (hc : ∀ r, handleOf c = some r → r < w.heap.length) :
    (Nowhere w c ∧ (step c w).1 = .error .keyError) ∨ (¬ Nowhere w c ∧ (step c w).1 ≠ .error .keyError ∧
      (step c).Raises (DataError (dataOf c)) w) := by
  have key : ∀ {P : Prop} {e}, DataError (dataOf c) e → e = .keyError → P := by
    rintro P e (rfl | ⟨rfl, _⟩) h <;> cases h
  have good : ¬ Nowhere w c → (step c).Raises (DataError (dataOf c)) w → ¬ Nowhere w c ∧ (step c w).1 ≠ .error .keyError ∧
      (step c).Raises (DataError (dataOf c)) w := fun h1 h2 => ⟨h1, fun h => key (h2 _ h) rfl, h2⟩
  have hsel : ∀ (r : ℕ) g o, w.heap[r]? = some ⟨some g, o⟩ → g ∈ w.study.networks.map Prod.fst := by
    intro r g o h
    obtain ⟨⟨net, hm⟩, -⟩ := hi.sels _ (List.mem_of_getElem? h) g rfl
    exact List.mem_map.2 ⟨_, hm, rfl⟩
  have hnd : ∀ (r : ℕ) g d, w.heap[r]? = some ⟨some g, some d⟩ → ∃ n, HasNode w.study g d n := by
    intro r g d h
    exact (hi.sels _ (List.mem_of_getElem? h) g rfl).2 d rfl
  have hnode : ∀ (r : ℕ) d, r < w.heap.length → (∃ o, w.heap[r]? = some ⟨none, o⟩ ∧ (node r d w).1 = .error .keyError) ∨
      ((∀ o, w.heap[r]? ≠ some ⟨none, o⟩) ∧ ∀ P, (node r d).Raises P w) := by
    intro r d hr
    rcases node_run r d w with ⟨h, _⟩ | ⟨o, h, h'⟩ | ⟨g, o, h, h'⟩
    · rw [List.getElem?_eq_getElem hr] at h; cases h
    · exact .inl ⟨o, h, by rw [h']⟩
    · refine .inr ⟨by rw [h]; simp, fun P e he => ?_⟩
      rw [h'] at he
      have h0 := addNode_raises (P := fun _ => False) (d := d) (hsel r g o h)
      cases ha : (Study.addNode g d w.study).1 with
      | ok a => rw [ha] at he; cases he
      | error e' => exact (h0 e' ha).elim
  have hlink : ∀ (r : ℕ) a b c q, r < w.heap.length → (∃ o, w.heap[r]? = some ⟨none, o⟩ ∧ (link r a b c q w).1 = .error .keyError) ∨
      ((∀ o, w.heap[r]? ≠ some ⟨none, o⟩) ∧ (link r a b c q).Raises (DataError [c, q]) w) := by
    intro r a b c q hr
    rcases selNetwork_cases hr with ⟨o, h, h'⟩ | ⟨g, o, h, h'⟩
    · exact .inl ⟨o, h, by simp [link, h']⟩
    · refine .inr ⟨by rw [h]; simp, ?_⟩
      unfold link
      refine .bind (fun e he => by rw [h'] at he; cases he) fun _ _ h2 => ?_
      rw [h'] at h2
      cases h2
      exact .bind (onStudy_raises (Study.addLink_raises (net_get (hsel r g o h)))) fun _ _ _ => .pure _ _
  have hconv : ∀ n g d q c, (converter n g d q c).Raises (DataError [c, q]) w := by
    intro n g d q c
    unfold converter
    refine .bind (onStudy_raises addConverter_raises) fun _ w1 h1 => ?_
    have h1' : w1.study = (Study.addConverter n w.study).2 := by
      have := congrArg (fun x => x.2.study) h1
      exact this.symm
    refine .bind (onStudy_raises (Study.setConverterDest_raises (by rw [h1']; exact Study.addConverter_has n _))) fun _ _ _ => ?_
    exact .bind (fun e he => nomatch he) fun _ _ _ => .pure _ _
  have hnet : ∀ g P, (network g).Raises P w := by
    intro g P e he
    rw [network_run] at he
    cases he
  have hin : ∀ (r : ℕ) (f : String → String → PyM Study Unit) (data : List Raw), r < w.heap.length →
      (∀ g d n, HasNode w.study g d n → (f g d).Raises (DataError data) w.study) →
      (∃ sel, w.heap[r]? = some sel ∧ (sel.network = none ∨ sel.node = none) ∧
        ((do let g ← selNetwork r; let d ← selNode r; onStudy (f g d); pure (.node r) : PyM World Handle) w).1 = .error .keyError) ∨
      ((∀ sel, w.heap[r]? = some sel → ¬ (sel.network = none ∨ sel.node = none)) ∧
        (do let g ← selNetwork r; let d ← selNode r; onStudy (f g d); pure (.node r) : PyM World Handle).Raises (DataError data) w) := by
    intro r f data hr hf
    rcases selBoth_cases hr (fun g d => do onStudy (f g d); pure (.node r)) with ⟨sel, h, h1, h2⟩ | ⟨g, d, h, h1⟩
    · exact .inl ⟨sel, h, h1, by rw [h2]⟩
    · refine .inr ⟨fun sel hs => ?_, fun e he => ?_⟩
      · rw [h] at hs; cases hs; simp
      · rw [h1] at he
        obtain ⟨n, hn⟩ := hnd r g d h
        exact PyM.Raises.bind (onStudy_raises (hf g d n hn)) (fun _ _ _ => .pure _ _) e he
  cases c with
  | studyNetwork g => exact .inr (good nofun (hnet _ _))
  | studyAddNetwork g => exact .inr (good nofun (.bind (onStudy_raises addNetwork_raises) fun _ _ _ => .pure _ _))
  | studyAddNode g d =>
    by_cases hg : g ∈ w.study.networks.map Prod.fst
    · exact .inr (good (fun | .addNode h => h hg) (.bind (onStudy_raises (addNode_raises hg)) fun _ _ _ => .pure _ _))
    · refine .inl ⟨.addNode hg, ?_⟩
      have := (Dict.get?_eq_none_iff w.study.networks g).2 hg
      simp [step, onStudy, Study.addNode, Dict.getE, this]
  | studyAddLink g a b c q =>
    by_cases hg : g ∈ w.study.networks.map Prod.fst
    · exact .inr (good (fun | .addLink h => h hg) (.bind (onStudy_raises (Study.addLink_raises (net_get hg))) fun _ _ _ => .pure _ _))
    · refine .inl ⟨.addLink hg, ?_⟩
      have := (Dict.get?_eq_none_iff w.study.networks g).2 hg
      simp [step, onStudy, Study.addLink, Dict.getE, this]
  | netNode r d =>
    rcases hnode r d (hc r rfl) with ⟨o, h, h'⟩ | ⟨h, h'⟩
    · exact .inl ⟨.netNode h, h'⟩
    · exact .inr (good (fun | .netNode h2 => h _ h2) (h' _))
  | nodeNode r d =>
    rcases hnode r d (hc r rfl) with ⟨o, h, h'⟩ | ⟨h, h'⟩
    · exact .inl ⟨.nodeNode h, h'⟩
    · exact .inr (good (fun | .nodeNode h2 => h _ h2) (h' _))
  | netLink r a b c q =>
    rcases hlink r a b c q (hc r rfl) with ⟨o, h, h'⟩ | ⟨h, h'⟩
    · exact .inl ⟨.netLink h, h'⟩
    · exact .inr (good (fun | .netLink h2 => h _ h2) h')
  | nodeLink r a b c q =>
    rcases hlink r a b c q (hc r rfl) with ⟨o, h, h'⟩ | ⟨h, h'⟩
    · exact .inl ⟨.nodeLink h, h'⟩
    · exact .inr (good (fun | .nodeLink h2 => h _ h2) h')
  | netNetwork r g => exact .inr (good nofun (hnet _ _))
  | nodeNetwork r g => exact .inr (good nofun (hnet _ _))
  | netConverter r n g d q c => exact .inr (good nofun (hconv n g d q c))
  | nodeConverter r n g d q c => exact .inr (good nofun (hconv n g d q c))
  | nodeConsumption r n c q =>
    rcases hin r (fun g d => Study.addConsumption g d n c q) [c, q] (hc r rfl) (fun g d n h => Study.addConsumption_raises hi.study h) with
      ⟨sel, h, h1, h2⟩ | ⟨h1, h2⟩
    · exact .inl ⟨.consumption h h1, h2⟩
    · exact .inr (good (fun | .consumption h h3 => h1 _ h h3) h2)
  | nodeProduction r n c q =>
    rcases hin r (fun g d => Study.addProduction g d n c q) [c, q] (hc r rfl) (fun g d n h => Study.addProduction_raises hi.study h) with
      ⟨sel, h, h1, h2⟩ | ⟨h1, h2⟩
    · exact .inl ⟨.production h h1, h2⟩
    · exact .inr (good (fun | .production h h3 => h1 _ h h3) h2)
  | nodeStorage r a =>
    rcases hin r (fun g d => Study.addStorage g d a) [a.capacity, a.flowIn, a.flowOut, a.cost, a.eff] (hc r rfl)
      (fun g d n h => Study.addStorage_raises hi.study h) with ⟨sel, h, h1, h2⟩ | ⟨h1, h2⟩
    · exact .inl ⟨.storage h h1, h2⟩
    · exact .inr (good (fun | .storage h h3 => h1 _ h h3) h2)
  | nodeToConverter r n q =>
    have hr : r < w.heap.length := hc r rfl
    let w1 : World := { w with study := (Study.addConverter n w.study).2 }
    have he : step (.nodeToConverter r n q) w = (do
        let g ← selNetwork r; let d ← selNode r; onStudy (Study.addConverterSrc n g d q); pure (.node r) : PyM World Handle) w1 := by
      have hw : w1 = { w with study := _ } := congrArg (fun x : Except PyErr Unit × Study => { w with study := x.2 }) (Study.addConverter_run n w.study)
      rw [hw]
      simp only [step, PyM.bind_run, onStudy, Study.addConverter_run]
    rcases selBoth_cases (w := w1) hr (fun g d => do onStudy (Study.addConverterSrc n g d q); pure (.node r)) with
      ⟨sel, h, h1, h2⟩ | ⟨g, d, h, h1⟩
    · exact .inl ⟨.toConverter h h1, by rw [he, h2]⟩
    · refine .inr (good (fun | .toConverter h2 h3 => ?_) fun e hx => ?_)
      · have h' : w.heap[r]? = some ⟨some g, some d⟩ := h
        rw [h'] at h2; cases h2; simp at h3
      · rw [he, h1] at hx
        exact PyM.Raises.bind (onStudy_raises (Study.addConverterSrc_raises (Study.addConverter_has n _))) (fun _ _ _ => .pure _ _) e hx

/-- C125: whatever was called before, a call on a handle is refused with `KeyError` exactly when it does not say where -/
theorem C125_key (h n : ℕ) (cs : List Call) {c : Call} (hc : ∀ r, handleOf c = some r → r < ((start h n).run cs).heap.length) :
    (step c ((start h n).run cs)).1 = .error .keyError ↔ Nowhere ((start h n).run cs) c := by
  rcases refusal (reachable_inv h n cs) hc with ⟨h1, h2⟩ | ⟨h1, h2, -⟩
  · exact ⟨fun _ => h1, fun _ => h2⟩
  · exact ⟨fun h => absurd h h2, fun h => absurd h h1⟩

/-- C125: a call that says where is refused with `ValueError` only, except that data without dimension may raise `IndexError` -/
theorem C125 (h n : ℕ) (cs : List Call) {c : Call} (hc : ∀ r, handleOf c = some r → r < ((start h n).run cs).heap.length)
    (hw : ¬ Nowhere ((start h n).run cs) c) {e : PyErr} (he : (step c ((start h n).run cs)).1 = .error e) :
    e = .valueError ∨ e = .indexError ∧ ∃ r ∈ dataOf c, NoDimension r := by
  rcases refusal (reachable_inv h n cs) hc with ⟨h1, -⟩ | ⟨-, -, h2⟩
  · exact absurd h1 hw
  · exact h2 e he

/-- a duplicate name -/
example (e : PyErr) (he : (step (.nodeProduction 0 "nuke" (.num 1) (.num 1))
    ((start 2 1).run [.studyNetwork "elec", .netNode 0 "a", .nodeProduction 0 "nuke" (.num 3) (.num 4)])).1 = .error e) : e = .valueError := by
  rcases C125 2 1 _ (by intro r hr; cases hr; decide +kernel) (by
      rintro (_ | _ | _ | _ | _ | _ | _ | ⟨h, h'⟩)
      have : ((start 2 1).run [.studyNetwork "elec", .netNode 0 "a", .nodeProduction 0 "nuke" (.num 3) (.num 4)]).heap[0]? =
        some ⟨some "elec", some "a"⟩ := by decide +kernel
      rw [this] at h
      cases h
      simp at h') he with h | ⟨-, r, hr, a, rfl, -⟩
  · exact h
  · simp [dataOf] at hr

example : (step (.nodeProduction 0 "nuke" (.num 1) (.num 1))
    ((start 2 1).run [.studyNetwork "elec", .netNode 0 "a", .nodeProduction 0 "nuke" (.num 3) (.num 4)])).1 = .error .valueError := by
  decide +kernel

/-- the handle that `converter` returns has no network: `KeyError` -/
example : (step (.netNode 1 "b") ((start 2 1).run [.studyNetwork "elec", .netNode 0 "a",
    .netConverter 0 "conv" "elec" "a" (.num 1) (.num 1)])).1 = .error .keyError :=
  (C125_key 2 1 _ (by intro r hr; cases hr; decide +kernel)).2 (.netNode (o := none) (by decide +kernel))

/-- `np.array(5)` -/
theorem C125_index : (step (.nodeProduction 0 "nuke" (.num 1) (.array ⟨[], [5], rfl⟩))
    ((start 2 1).run [.studyNetwork "elec", .netNode 0 "a"])).1 = .error .indexError := by
  decide +kernel

end Hadar.Props
