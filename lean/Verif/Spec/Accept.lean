import Verif.Spec.LP

/-! # Studies the optimizer accepts -/

namespace Hadar.Spec

open Hadar

/-- no converter has two sources whose network and node, written `network::node`, give the same text -/
def DistinctSources (s : Study) : Prop :=
  ∀ p ∈ s.converters, (p.2.srcRatios.map fun q => joinKey q.1).Nodup

/-- keys of the dictionaries of a study are unique, as in any Python `dict` -/
structure Dictionaries (s : Study) : Prop where
  networks : (s.networks.map Prod.fst).Nodup
  nodes : ∀ p ∈ s.networks, (p.2.nodes.map Prod.fst).Nodup
  converters : (s.converters.map Prod.fst).Nodup

/-- links go to nodes of their network, converters go from and to nodes of the study -/
structure Wired (s : Study) : Prop where
  links : ∀ g d n, HasNode s g d n → ∀ l ∈ n.links, ∃ n', HasNode s g l.dest n'
  dest : ∀ p ∈ s.converters, ∃ n, HasNode s p.2.destNetwork p.2.destNode n
  sources : ∀ p ∈ s.converters, ∀ q ∈ p.2.srcRatios, ∃ g d n, q.1 = [g, d] ∧ HasNode s g d n

end Hadar.Spec
