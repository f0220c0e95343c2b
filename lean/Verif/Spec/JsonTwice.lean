import Verif.Spec.Json

/-!
# What reading a result leaves of the object read
-/

namespace Hadar.Spec

open Hadar

/-- the nodes of a network have become Python objects -/
def OutputNetwork.left (n : OutputNetwork) : Json := .obj [("nodes", .obj (n.nodes.map fun p => (p.1, .native)))]

/-- the sources of a converter are designated by tuples -/
def OutputConverter.left (c : OutputConverter) : Json :=
  .obj [("name", .str c.name), ("flow_src", .tobj (c.flowSrc.map fun p => (p.1, Json.ofNd p.2))),
    ("flow_dest", Json.ofNd c.flowDest)]

def Result.left (r : Result) : Json :=
  .obj [("networks", .obj (r.networks.map fun p => (p.1, OutputNetwork.left p.2))),
    ("converters", .obj (r.converters.map fun p => (p.1, OutputConverter.left p.2))), ("benchmark", r.benchmark.toJson)]

/-- what a second reading gives: it stops at the first node, then at the first source of a converter -/
def Result.secondReading (r : Result) : Except PyErr Result :=
  if ∃ p ∈ r.networks, p.2.nodes ≠ [] then .error .typeError
  else if ∃ p ∈ r.converters, p.2.flowSrc ≠ [] then .error .attributeError
  else .ok r

end Hadar.Spec
