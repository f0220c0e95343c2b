import Verif.Proofs.Numeric
import Verif.Spec.Study

/-! # Lemmas on the study builder: what each method does -/

set_option linter.unusedSimpArgs false

namespace Hadar

open Spec

namespace Study

/-! ### Outcome of each method: it raised and left the state alone, or returned a new state -/

theorem addConsumption_run (g d name : String) (cost q : Raw) (s : Study) :
    (∃ e, addConsumption g d name cost q s = (.error e, s)) ∨
    (∃ net n qv cv, s.networks.get? g = some net ∧ net.nodes.get? d = some n ∧
      name ∉ n.consumptions.map Consumption.name ∧ s.factory.create q = .ok qv ∧
      qv.lt 0 = false ∧ s.factory.create cost = .ok cv ∧
      addConsumption g d name cost q s = (.ok (), s.updNode g d
        (fun n => { n with consumptions := n.consumptions ++ [⟨cv, qv, name⟩] }))) := by
  simp only [addConsumption, getNode, create, Dict.getE, PyM.bind_run, PyM.get_run, PyM.lift_run]
  cases h1 : s.networks.get? g with
  | none => simp
  | some net =>
    simp only
    cases h2 : net.nodes.get? d with
    | none => simp
    | some n =>
      simp only
      by_cases h3 : name ∈ n.consumptions.map Consumption.name
      · simp [-List.mem_map, h3]
      · cases h4 : s.factory.create q with
        | error e => simp [-List.mem_map, h3, h4]
        | ok qv =>
          cases h5 : qv.lt 0 with
          | true => simp [-List.mem_map, h3, h4, h5]
          | false =>
            cases h6 : s.factory.create cost with
            | error e => simp [-List.mem_map, h3, h4, h5, h6]
            | ok cv =>
              right; exact ⟨net, n, qv, cv, rfl, h2, h3, rfl, h5, rfl, by simp [-List.mem_map, h3, h4, h5, h6]⟩

theorem addProduction_run (g d name : String) (cost q : Raw) (s : Study) :
    (∃ e, addProduction g d name cost q s = (.error e, s)) ∨
    (∃ net n qv cv, s.networks.get? g = some net ∧ net.nodes.get? d = some n ∧
      name ∉ n.productions.map Production.name ∧ s.factory.create q = .ok qv ∧
      qv.lt 0 = false ∧ s.factory.create cost = .ok cv ∧
      addProduction g d name cost q s = (.ok (), s.updNode g d
        (fun n => { n with productions := n.productions ++ [⟨name, cv, qv⟩] }))) := by
  simp only [addProduction, getNode, create, Dict.getE, PyM.bind_run, PyM.get_run, PyM.lift_run]
  cases h1 : s.networks.get? g with
  | none => simp
  | some net =>
    simp only
    cases h2 : net.nodes.get? d with
    | none => simp
    | some n =>
      simp only
      by_cases h3 : name ∈ n.productions.map Production.name
      · simp [-List.mem_map, h3]
      · cases h4 : s.factory.create q with
        | error e => simp [-List.mem_map, h3, h4]
        | ok qv =>
          cases h5 : qv.lt 0 with
          | true => simp [-List.mem_map, h3, h4, h5]
          | false =>
            cases h6 : s.factory.create cost with
            | error e => simp [-List.mem_map, h3, h4, h5, h6]
            | ok cv =>
              right; exact ⟨net, n, qv, cv, rfl, h2, h3, rfl, h5, rfl, by simp [-List.mem_map, h3, h4, h5, h6]⟩

theorem addStorage_run (g d : String) (a : StorageArgs) (s : Study) :
    (∃ e, addStorage g d a s = (.error e, s)) ∨
    (∃ net n cap fi fo cv ev, s.networks.get? g = some net ∧ net.nodes.get? d = some n ∧
      a.name ∉ n.storages.map Storage.name ∧
      s.factory.create a.flowIn = .ok fi ∧ s.factory.create a.flowOut = .ok fo ∧
      fi.lt 0 = false ∧ fo.lt 0 = false ∧
      s.factory.create a.capacity = .ok cap ∧ cap.lt 0 = false ∧ 0 ≤ a.initCapacity ∧
      s.factory.create a.eff = .ok ev ∧ ev.lt 0 = false ∧ ev.gt 1 = false ∧
      s.factory.create a.cost = .ok cv ∧
      addStorage g d a s = (.ok (), s.updNode g d
        (fun n => { n with storages :=
          n.storages ++ [⟨a.name, cap, fi, fo, cv, a.initCapacity, ev⟩] }))) := by
  simp only [addStorage, getNode, create, Dict.getE, PyM.bind_run, PyM.get_run, PyM.lift_run]
  cases h1 : s.networks.get? g with
  | none => simp
  | some net =>
    simp only
    cases h2 : net.nodes.get? d with
    | none => simp
    | some n =>
      simp only
      by_cases h3 : a.name ∈ n.storages.map Storage.name
      · simp [-List.mem_map, h3]
      · cases h4 : s.factory.create a.flowIn with
        | error e => simp [-List.mem_map, h3, h4]
        | ok fi =>
          cases h5 : s.factory.create a.flowOut with
          | error e => simp [-List.mem_map, h3, h4, h5]
          | ok fo =>
            cases h6 : fi.lt 0 with
            | true => simp [-List.mem_map, h3, h4, h5, h6]
            | false =>
            cases h7 : fo.lt 0 with
            | true => simp [-List.mem_map, h3, h4, h5, h6, h7]
            | false =>
            cases h8 : s.factory.create a.capacity with
            | error e => simp [-List.mem_map, h3, h4, h5, h6, h7, h8]
            | ok cap =>
            cases h9 : cap.lt 0 with
            | true => simp [-List.mem_map, h3, h4, h5, h6, h7, h8, h9]
            | false =>
            by_cases h10 : a.initCapacity < 0
            · simp [-List.mem_map, h3, h4, h5, h6, h7, h8, h9, h10]
            · cases h11 : s.factory.create a.eff with
              | error e => simp [-List.mem_map, h3, h4, h5, h6, h7, h8, h9, h10, h11]
              | ok ev =>
              cases h12 : ev.lt 0 with
              | true => simp [-List.mem_map, h3, h4, h5, h6, h7, h8, h9, h10, h11, h12]
              | false =>
              cases h13 : ev.gt 1 with
              | true => simp [-List.mem_map, h3, h4, h5, h6, h7, h8, h9, h10, h11, h12, h13]
              | false =>
              cases h14 : s.factory.create a.cost with
              | error e => simp [-List.mem_map, h3, h4, h5, h6, h7, h8, h9, h10, h11, h12, h13, h14]
              | ok cv =>
                right
                exact ⟨net, n, cap, fi, fo, cv, ev, rfl, h2, h3, rfl, rfl, h6, h7, rfl, h9,
                  not_lt.mp h10, rfl, h12, h13, rfl,
                  by simp [-List.mem_map, h3, h4, h5, h6, h7, h8, h9, h10, h11, h12, h13, h14]⟩

theorem addLink_run (g src dest : String) (cost q : Raw) (s : Study) :
    (∃ e, addLink g src dest cost q s = (.error e, s)) ∨
    (∃ net n qv cv, s.networks.get? g = some net ∧ net.nodes.get? src = some n ∧
      dest ∈ net.nodes.keys ∧
      dest ∉ n.links.map Link.dest ∧ s.factory.create q = .ok qv ∧
      qv.lt 0 = false ∧ s.factory.create cost = .ok cv ∧
      addLink g src dest cost q s = (.ok (), s.updNode g src
        (fun n => { n with links := n.links ++ [⟨dest, qv, cv⟩] }))) := by
  simp only [addLink, getNode, create, Dict.getE, PyM.bind_run, PyM.get_run, PyM.lift_run]
  cases h1 : s.networks.get? g with
  | none => simp
  | some net =>
    simp only
    cases h2 : net.nodes.get? src with
    | none => simp [Dict.contains, h2]
    | some n =>
      have hc : net.nodes.contains src = true := by simp [Dict.contains, h2]
      cases hd : net.nodes.contains dest with
      | false => simp [-List.mem_map, hc, hd]
      | true =>
        by_cases h3 : dest ∈ n.links.map Link.dest
        · simp [-List.mem_map, hc, hd, h1, h2, h3]
        · cases h4 : s.factory.create q with
          | error e => simp [-List.mem_map, hc, hd, h1, h2, h3, h4]
          | ok qv =>
            cases h5 : qv.lt 0 with
            | true => simp [-List.mem_map, hc, hd, h1, h2, h3, h4, h5]
            | false =>
              cases h6 : s.factory.create cost with
              | error e => simp [-List.mem_map, hc, hd, h1, h2, h3, h4, h5, h6]
              | ok cv =>
                right
                exact ⟨net, n, qv, cv, rfl, h2, (Dict.contains_iff _ _).mp hd, h3, rfl, h5, rfl,
                  by simp [-List.mem_map, hc, hd, h1, h2, h3, h4, h5, h6]⟩

theorem addNetwork_run (g : String) (s : Study) :
    addNetwork g s = (.ok (), if g ∈ s.networks.keys then s
      else { s with networks := s.networks ++ [(g, ⟨[]⟩)] }) := by
  simp only [addNetwork, PyM.bind_run, PyM.get_run]
  by_cases h : g ∈ s.networks.keys
  · have := (Dict.contains_iff _ _).mpr h
    simp [this, h]
  · have := (Dict.contains_eq_false_iff _ _).mpr h
    simp [this, h, Dict.set_of_not_mem h]

theorem addNode_run (g d : String) (s : Study) :
    (s.networks.get? g = none ∧ addNode g d s = (.error .keyError, s)) ∨
    (∃ net, s.networks.get? g = some net ∧
      addNode g d s = (.ok (), if d ∈ net.nodes.keys then s
        else s.updNet g (fun net => ⟨net.nodes.set d ⟨[], [], [], []⟩⟩))) := by
  simp only [addNode, Dict.getE, PyM.bind_run, PyM.get_run, PyM.lift_run]
  cases h1 : s.networks.get? g with
  | none => simp
  | some net =>
    right
    refine ⟨net, rfl, ?_⟩
    by_cases h : d ∈ net.nodes.keys
    · have := (Dict.contains_iff _ _).mpr h
      simp [this, h]
    · have := (Dict.contains_eq_false_iff _ _).mpr h
      simp [this, h]

theorem addConverter_run (name : String) (s : Study) :
    addConverter name s = (.ok (), if name ∈ s.converters.keys then s
      else { s with converters := s.converters ++ [(name, ⟨name, [], "", "", .int0, .int0⟩)] }) := by
  simp only [addConverter, PyM.bind_run, PyM.get_run]
  by_cases h : name ∈ s.converters.keys
  · simp [-List.mem_map, h]
  · simp [-List.mem_map, h, Dict.set_of_not_mem h]

theorem addConverterSrc_run (name g d : String) (r : Raw) (s : Study) :
    (∃ e, addConverterSrc name g d r s = (.error e, s)) ∨
    (∃ c rv, s.converters.get? name = some c ∧ [g, d] ∉ c.srcRatios.keys ∧
      s.factory.create r = .ok rv ∧
      addConverterSrc name g d r s = (.ok (), s.updConv name
        (fun c => { c with srcRatios := c.srcRatios.set [g, d] rv }))) := by
  simp only [addConverterSrc, create, Dict.getE, PyM.bind_run, PyM.get_run, PyM.lift_run]
  cases h1 : s.converters.get? name with
  | none => simp
  | some c =>
    cases h2 : c.srcRatios.contains [g, d] with
    | true => simp [-List.mem_map, h2]
    | false =>
      cases h3 : s.factory.create r with
      | error e => simp [-List.mem_map, h2, h3]
      | ok rv =>
        right
        exact ⟨c, rv, rfl, (Dict.contains_eq_false_iff _ _).mp h2, rfl, by simp [-List.mem_map, h2, h3]⟩

/-- the state after the two assignments of `_set_converter_dest` -/
def withDest (s : Study) (name g d : String) : Study :=
  (s.updConv name (fun c => { c with destNetwork := g })).updConv name
    (fun c => { c with destNode := d })

def withCost (s : Study) (name : String) (v : NumVal) : Study :=
  s.updConv name (fun c => { c with cost := .val v })

def withMax (s : Study) (name : String) (v : NumVal) : Study :=
  s.updConv name (fun c => { c with max := .val v })

theorem setConverterDest_run (name g d : String) (cost max : Raw) (s : Study) :
    (∃ e, setConverterDest name g d cost max s = (.error e, s)) ∨
    (∃ c net, s.converters.get? name = some c ∧ (c.destNetwork = "" ∨ c.destNode = "") ∧
      s.networks.get? g = some net ∧ d ∈ net.nodes.keys ∧
      ((∃ e, s.factory.create cost = .error e ∧
          setConverterDest name g d cost max s = (.error e, s.withDest name g d)) ∨
       (∃ cv e, s.factory.create cost = .ok cv ∧ s.factory.create max = .error e ∧
          setConverterDest name g d cost max s =
            (.error e, (s.withDest name g d).withCost name cv)) ∨
       (∃ cv mv, s.factory.create cost = .ok cv ∧ s.factory.create max = .ok mv ∧
          setConverterDest name g d cost max s =
            (.ok (), ((s.withDest name g d).withCost name cv).withMax name mv)))) := by
  simp only [setConverterDest, create, Dict.getE, PyM.bind_run, PyM.get_run, PyM.lift_run]
  cases h1 : s.converters.get? name with
  | none => simp
  | some c =>
    by_cases h2 : c.destNetwork ≠ "" ∧ c.destNode ≠ ""
    · simp [-List.mem_map, h2]
    · cases h3 : s.networks.get? g with
      | none => simp [-List.mem_map, h2]
      | some net =>
        cases h4 : net.nodes.contains d with
        | false => simp [-List.mem_map, h2, h4]
        | true =>
          right
          refine ⟨c, net, rfl, by by_contra hc; exact h2 (not_or.mp hc), rfl,
            (Dict.contains_iff _ _).mp h4, ?_⟩
          have hf : ∀ (s : Study) f, (s.updConv name f).factory = s.factory := fun _ _ => rfl
          cases h5 : s.factory.create cost with
          | error e =>
            left; exact ⟨e, rfl, by simp [-List.mem_map, h2, h4, hf, h5, withDest]⟩
          | ok cv =>
            right
            cases h6 : s.factory.create max with
            | error e => left; exact ⟨cv, e, rfl, rfl, by simp [-List.mem_map, h2, h4, hf, h5, h6, withDest, withCost]⟩
            | ok mv =>
              right
              exact ⟨cv, mv, rfl, rfl, by simp [-List.mem_map, h2, h4, hf, h5, h6, withDest, withCost, withMax]⟩

end Study
end Hadar
