import Verif.Spec.Rename
import Verif.Spec.Order
import Verif.Spec.Margin

/-!
# Specification: places of a study that are alike
-/

namespace Hadar.Spec

open Hadar

/-- C145: with the names of `ρ` the study is the same study, up to the order of declarations: each place has a twin with the same elements,
the same links to twin places and the same converters between twin places -/
def SelfAlike (ρ : Names) (s : Study) : Prop := Reordered s (ρ.study s)

/-- C145: names are exchanged by pairs -/
structure Names.Pairs (ρ : Names) : Prop where
  net : ∀ x, ρ.net (ρ.net x) = x
  node : ∀ x, ρ.node (ρ.node x) = x
  conv : ∀ x, ρ.conv (ρ.conv x) = x
  elem : ∀ x, ρ.elem (ρ.elem x) = x

/-- C145: what `D'` does somewhere is what `D` does at the twin place with the twin element -/
structure TwinFlows (ρ : Names) (s : Study) (D D' : Dispatch) : Prop where
  consumptions : ∀ g d n n', HasNode s g d n → HasNode s (ρ.net g) (ρ.node d) n' → ∀ (i j : ℕ) c, n.consumptions[i]? = some c →
    n'.consumptions[j]? = some { c with name := ρ.elem c.name } → ∀ t < s.horizon, D'.lol g d i t = D.lol (ρ.net g) (ρ.node d) j t
  productions : ∀ g d n n', HasNode s g d n → HasNode s (ρ.net g) (ρ.node d) n' → ∀ (i j : ℕ) c, n.productions[i]? = some c →
    n'.productions[j]? = some { c with name := ρ.elem c.name } → ∀ t < s.horizon, D'.prod g d i t = D.prod (ρ.net g) (ρ.node d) j t
  storages : ∀ g d n n', HasNode s g d n → HasNode s (ρ.net g) (ρ.node d) n' → ∀ (i j : ℕ) c, n.storages[i]? = some c →
    n'.storages[j]? = some { c with name := ρ.elem c.name } → ∀ t < s.horizon, D'.cap g d i t = D.cap (ρ.net g) (ρ.node d) j t ∧
      D'.fin g d i t = D.fin (ρ.net g) (ρ.node d) j t ∧ D'.fout g d i t = D.fout (ρ.net g) (ρ.node d) j t
  links : ∀ g d n n', HasNode s g d n → HasNode s (ρ.net g) (ρ.node d) n' → ∀ (i j : ℕ) l, n.links[i]? = some l →
    n'.links[j]? = some { l with dest := ρ.node l.dest } → ∀ t < s.horizon, D'.link g d i t = D.link (ρ.net g) (ρ.node d) j t
  taken : ∀ p ∈ s.converters, ∀ g d, [g, d] ∈ p.2.srcRatios.map Prod.fst → ∀ t < s.horizon,
    D'.convSrc p.1 (g, d) t = D.convSrc (ρ.conv p.1) (ρ.net g, ρ.node d) t
  given : ∀ p ∈ s.converters, ∀ t < s.horizon, D'.convDest p.1 t = D.convDest (ρ.conv p.1) t

/-- C145: the dispatch does the same at twin places -/
def EvenHanded (ρ : Names) (s : Study) (D : Dispatch) : Prop := TwinFlows ρ s D D

/-- C145: a dispatch of least cost -/
def LeastCost (s : Study) (k : ℕ) (D : Dispatch) : Prop :=
  Feasible s k D ∧ ∀ E, Feasible s k E → cost s k D ≤ cost s k E

end Hadar.Spec
