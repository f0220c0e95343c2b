import Verif.Spec.LP

/-!
# A study under other names
-/

namespace Hadar.Spec

open Hadar

/-- new names for networks, nodes, converters and elements of nodes -/
structure Names where
  net : String → String
  node : String → String
  conv : String → String
  elem : String → String

/-- different names stay different; the empty name stays the empty name -/
structure Names.Ok (ρ : Names) : Prop where
  net : Function.Injective ρ.net
  node : Function.Injective ρ.node
  conv : Function.Injective ρ.conv
  elem : Function.Injective ρ.elem
  netEmpty : ρ.net "" = ""
  nodeEmpty : ρ.node "" = ""

def Names.dict {K K' V V' : Type} (f : K → K') (g : V → V') (d : Dict K V) : Dict K' V' := d.map fun p => (f p.1, g p.2)

/-- a source `(network, node)` of a converter -/
def Names.key (ρ : Names) : List String → List String
  | [g, d] => [ρ.net g, ρ.node d]
  | l => l

def Names.inNode (ρ : Names) (n : InputNode) : InputNode where
  consumptions := n.consumptions.map fun c => { c with name := ρ.elem c.name }
  productions := n.productions.map fun c => { c with name := ρ.elem c.name }
  storages := n.storages.map fun c => { c with name := ρ.elem c.name }
  links := n.links.map fun l => { l with dest := ρ.node l.dest }

def Names.network (ρ : Names) (net : InputNetwork) : InputNetwork := ⟨Names.dict ρ.node ρ.inNode net.nodes⟩

def Names.converter (ρ : Names) (c : Converter) : Converter :=
  { c with name := ρ.conv c.name, srcRatios := Names.dict ρ.key id c.srcRatios, destNetwork := ρ.net c.destNetwork,
           destNode := ρ.node c.destNode }

/-- the study under other names -/
def Names.study (ρ : Names) (s : Study) : Study :=
  { s with networks := Names.dict ρ.net ρ.network s.networks, converters := Names.dict ρ.conv ρ.converter s.converters }

/-- what builder objects remember, under other names -/
def Names.sel (ρ : Names) (s : Sel) : Sel := ⟨s.network.map ρ.net, s.node.map ρ.node⟩

/-- the study under construction and the builder objects, under other names -/
def Names.world (ρ : Names) (w : World) : World := ⟨ρ.study w.study, w.heap.map ρ.sel⟩

/-- the same call with other names -/
def Names.call (ρ : Names) : Call → Call
  | .studyNetwork name => .studyNetwork (ρ.net name)
  | .studyAddNetwork name => .studyAddNetwork (ρ.net name)
  | .studyAddNode g d => .studyAddNode (ρ.net g) (ρ.node d)
  | .studyAddLink g a b c q => .studyAddLink (ρ.net g) (ρ.node a) (ρ.node b) c q
  | .netNode r name => .netNode r (ρ.node name)
  | .netLink r a b c q => .netLink r (ρ.node a) (ρ.node b) c q
  | .netNetwork r name => .netNetwork r (ρ.net name)
  | .netConverter r name g d m c => .netConverter r (ρ.conv name) (ρ.net g) (ρ.node d) m c
  | .nodeConsumption r name c q => .nodeConsumption r (ρ.elem name) c q
  | .nodeProduction r name c q => .nodeProduction r (ρ.elem name) c q
  | .nodeStorage r a => .nodeStorage r { a with name := ρ.elem a.name }
  | .nodeNode r name => .nodeNode r (ρ.node name)
  | .nodeLink r a b c q => .nodeLink r (ρ.node a) (ρ.node b) c q
  | .nodeNetwork r name => .nodeNetwork r (ρ.net name)
  | .nodeConverter r name g d m c => .nodeConverter r (ρ.conv name) (ρ.net g) (ρ.node d) m c
  | .nodeToConverter r name x => .nodeToConverter r (ρ.conv name) x

/-- the dispatch under the old names -/
def Names.dispatch (ρ : Names) (D : Dispatch) : Dispatch where
  lol g d i t := D.lol (ρ.net g) (ρ.node d) i t
  prod g d i t := D.prod (ρ.net g) (ρ.node d) i t
  cap g d i t := D.cap (ρ.net g) (ρ.node d) i t
  fin g d i t := D.fin (ρ.net g) (ρ.node d) i t
  fout g d i t := D.fout (ρ.net g) (ρ.node d) i t
  link g d i t := D.link (ρ.net g) (ρ.node d) i t
  convSrc c p t := D.convSrc (ρ.conv c) (ρ.net p.1, ρ.node p.2) t
  convDest c t := D.convDest (ρ.conv c) t

end Hadar.Spec
