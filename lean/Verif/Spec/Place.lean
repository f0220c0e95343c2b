import Verif.Spec.LP

/-!
# Nodes put in other networks
-/

namespace Hadar.Spec

open Hadar

/-- where a node (network, name) goes -/
abbrev Place := String × String → String × String

/-- a node of network `g`, whose links follow the nodes they go to -/
def Place.inNode (place : Place) (g : String) (n : InputNode) : InputNode :=
  { n with links := n.links.map fun l => { l with dest := (place (g, l.dest)).2 } }

/-- a source `[network, node]` of a converter -/
def Place.key (place : Place) : List String → List String
  | [g, d] => [(place (g, d)).1, (place (g, d)).2]
  | l => l

def Place.converter (place : Place) (c : Converter) : Converter :=
  { c with
    srcRatios := c.srcRatios.map fun q => (place.key q.1, q.2)
    destNetwork := (place (c.destNetwork, c.destNode)).1
    destNode := (place (c.destNetwork, c.destNode)).2 }

/-- `s'` has the nodes of `s` at other places, in any number of networks; nodes that are linked stay in one network -/
structure Moved (place : Place) (s s' : Study) : Prop where
  horizon : s.horizon = s'.horizon
  scenarios : s.nbScn = s'.nbScn
  apart : ∀ g d n g₂ d₂ n₂, HasNode s g d n → HasNode s g₂ d₂ n₂ → place (g, d) = place (g₂, d₂) → (g, d) = (g₂, d₂)
  nodes : ∀ g d n, HasNode s g d n → HasNode s' (place (g, d)).1 (place (g, d)).2 (place.inNode g n)
  onto : ∀ g' d' n', HasNode s' g' d' n' → ∃ g d n, HasNode s g d n ∧ place (g, d) = (g', d')
  together : ∀ g d n, HasNode s g d n → ∀ l ∈ n.links, (place (g, l.dest)).1 = (place (g, d)).1
  converters : s'.converters = s.converters.map fun p => (p.1, place.converter p.2)

/-- a dispatch of `s'`, read at the old places -/
def Place.dispatch (place : Place) (D : Dispatch) : Dispatch where
  lol g d i t := D.lol (place (g, d)).1 (place (g, d)).2 i t
  prod g d i t := D.prod (place (g, d)).1 (place (g, d)).2 i t
  cap g d i t := D.cap (place (g, d)).1 (place (g, d)).2 i t
  fin g d i t := D.fin (place (g, d)).1 (place (g, d)).2 i t
  fout g d i t := D.fout (place (g, d)).1 (place (g, d)).2 i t
  link g d i t := D.link (place (g, d)).1 (place (g, d)).2 i t
  convSrc c p t := D.convSrc c (place p) t
  convDest c t := D.convDest c t

end Hadar.Spec
