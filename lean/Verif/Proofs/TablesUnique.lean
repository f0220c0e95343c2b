import Verif.Proofs.ConvTables
import Mathlib.Data.List.ProdSigma

/-! # Rows of the tables are identified by their keys -/

namespace Hadar

open Spec

theorem elements_nodup {α : Type} {s : Study} (hu : UniqueNames s) (sel : InputNode → List α)
    (nm : α → String) (hn : ∀ g d n, HasNode s g d n → ((sel n).map nm).Nodup) :
    ((elements s sel).map fun e => (e.1, e.2.1, nm e.2.2.2)).Nodup := by
  unfold elements
  rw [List.map_flatMap]
  refine nodup_flatMap_key Prod.fst (fun e => e.1) hu.networks ?_ ?_
  · intro p hp
    rw [List.map_flatMap]
    refine nodup_flatMap_key Prod.fst (fun e => e.2.1) (hu.nodes p hp) ?_ ?_
    · intro q hq
      have := hn p.1 q.1 q.2 ⟨p.2, hp, hq⟩
      have e : (((sel q.2).zipIdx.map fun e => (p.1, q.1, e.2, e.1)).map fun e =>
          (e.1, e.2.1, nm e.2.2.2)) = ((sel q.2).map nm).map fun x => (p.1, q.1, x) := by
        rw [List.map_map, List.map_map]
        conv_rhs => rw [← List.zipIdx_map_fst 0 (sel q.2), List.map_map]
        rfl
      rw [e]
      exact this.map (fun a b h => by simpa using h)
    · intro q hq x hx
      obtain ⟨y, hy, rfl⟩ := List.mem_map.mp hx
      obtain ⟨z, hz, rfl⟩ := List.mem_map.mp hy
      rfl
  · intro p hp x hx
    obtain ⟨y, hy, rfl⟩ := List.mem_map.mp hx
    obtain ⟨q, hq, hy⟩ := List.mem_flatMap.mp hy
    obtain ⟨z, hz, rfl⟩ := List.mem_map.mp hy
    rfl

theorem pairs_nodup (n h : ℕ) : (pairs n h).Nodup := by
  unfold pairs
  refine nodup_flatMap_key id Prod.fst (by simpa using List.nodup_range) ?_ ?_
  · intro k _
    exact List.nodup_range.map (fun a b h => by simpa using h)
  · intro k _ x hx
    obtain ⟨t, _, rfl⟩ := List.mem_map.mp hx
    rfl

/-- rows listed for distinct elements are distinct -/
theorem identity_nodup {E κ : Type} {items : List E} {idf : E → κ} (h : (items.map idf).Nodup)
    {n m : ℕ} {F : κ → ℕ → ℕ → List Cell}
    (hF : ∀ a k t b k' t', F a k t = F b k' t' → a = b ∧ k = k' ∧ t = t') :
    (items.flatMap fun e => (pairs n m).map fun p => F (idf e) p.1 p.2).Nodup := by
  have e : (items.flatMap fun e => (pairs n m).map fun p => F (idf e) p.1 p.2) =
      ((items.map idf) ×ˢ (pairs n m)).map fun x => F x.1 x.2.1 x.2.2 := by
    rw [show (items.map idf) ×ˢ (pairs n m) = (items.map idf).flatMap fun a =>
      (pairs n m).map (Prod.mk a) from rfl, List.map_flatMap, List.flatMap_map]
    simp [Function.comp_def]
  rw [e]
  refine (h.product (pairs_nodup n m)).map ?_
  rintro ⟨a, k, t⟩ ⟨b, k', t'⟩ hab
  obtain ⟨rfl, rfl, rfl⟩ := hF _ _ _ _ _ _ hab
  rfl

/-- the key of a row -/
def key5 (x : String × String × String) (k t : ℕ) : List Cell :=
  [.str x.1, .str x.2.1, .str x.2.2, .num k, .num t]

theorem key5_inj : ∀ a k t b k' t', key5 a k t = key5 b k' t' → a = b ∧ k = k' ∧ t = t' := by
  rintro ⟨a, b, c⟩ k t ⟨a', b', c'⟩ k' t' h
  simp only [key5, List.cons.injEq, Cell.str.injEq, Cell.num.injEq, Nat.cast_inj, and_true] at h
  obtain ⟨rfl, rfl, rfl, rfl, rfl⟩ := h
  exact ⟨rfl, rfl, rfl⟩

/-- identity of an element: network, node, name -/
theorem table_nodup {E : Type} {s : Study} {kind : IndexKind} {items : List E}
    {R : E → ℕ → ℕ → Row} {idf : E → String × String × String}
    (hR : ∀ e k t, identity kind (R e k t) = key5 (idf e) k t) (h : (items.map idf).Nodup) :
    ((items.flatMap fun e => grid s (R e)).map (identity kind)).Nodup := by
  rw [List.map_flatMap]
  simp only [grid_eq, List.map_map, Function.comp_def, hR]
  exact identity_nodup h key5_inj

theorem sources_nodup {s : Study} (hi : StudyInv s) :
    ((sources s).map fun e => (e.2.2.1, e.2.2.2.1, e.2.1)).Nodup := by
  unfold sources
  rw [List.map_flatMap]
  refine nodup_flatMap_key Prod.fst (fun e => e.2.2) hi.names.converters ?_ ?_
  · intro p hp
    have h1 := hi.names.sources p hp
    rw [List.map_map]
    have h2 : ∀ q ∈ p.2.srcRatios, ∃ g d, q.1 = [g, d] := by
      intro q hq
      obtain ⟨g, d, _, e, _⟩ := (hi.convs p hp).sources q.1 (List.mem_map_of_mem hq)
      exact ⟨g, d, e⟩
    rw [List.nodup_iff_injective_getElem] at h1
    refine (List.nodup_map_iff_inj_on (List.Nodup.of_map _ (hi.names.sources p hp))).mpr ?_
    intro a ha b hb hab
    obtain ⟨g, d, ea⟩ := h2 a ha
    obtain ⟨g', d', eb⟩ := h2 b hb
    simp [ea, eb] at hab
    exact List.inj_on_of_nodup_map (hi.names.sources p hp) ha hb (by rw [ea, eb, hab.1, hab.2])
  · intro p hp x hx
    obtain ⟨y, hy, rfl⟩ := List.mem_map.mp hx
    obtain ⟨z, hz, rfl⟩ := List.mem_map.mp hy
    rfl

/-- all tables: a row is identified by network, node, name, scenario and time -/
theorem tableRows_nodup {s : Study} (hi : StudyInv s) (r : Result) (kind : IndexKind) :
    ((tableRows s r kind).map (identity kind)).Nodup := by
  have hu := hi.names
  cases kind with
  | cons =>
    exact table_nodup (idf := fun e : String × String × ℕ × Consumption => (e.1, e.2.1, e.2.2.2.name))
      (fun _ _ _ => rfl) (elements_nodup hu _ (fun c : Consumption => c.name) hu.consumptions)
  | prod =>
    exact table_nodup (idf := fun e : String × String × ℕ × Production => (e.1, e.2.1, e.2.2.2.name))
      (fun _ _ _ => rfl) (elements_nodup hu _ (fun c : Production => c.name) hu.productions)
  | stor =>
    exact table_nodup (idf := fun e : String × String × ℕ × Storage => (e.1, e.2.1, e.2.2.2.name))
      (fun _ _ _ => rfl) (elements_nodup hu _ (fun c : Storage => c.name) hu.storages)
  | link =>
    exact table_nodup (idf := fun e : String × String × ℕ × Link => (e.1, e.2.1, e.2.2.2.dest))
      (fun _ _ _ => rfl) (elements_nodup hu _ (fun c : Link => c.dest) hu.links)
  | destConv =>
    refine table_nodup (idf := fun p : String × Converter => (p.2.destNetwork, p.2.destNode, p.1)) (fun _ _ _ => rfl) ?_
    refine List.Nodup.of_map (fun x => x.2.2) ?_
    rw [List.map_map]
    exact hu.converters
  | srcConv =>
    exact table_nodup (idf := fun e : Converter × String × String × String × NumVal =>
      (e.2.2.1, e.2.2.2.1, e.2.1)) (fun _ _ _ => rfl) (sources_nodup hi)
  | _ => simp [tableRows]

end Hadar
