import Verif.Spec.Sensitivity

/-!
# Time steps with the same data
-/

namespace Hadar

open Spec

/-- the elements of a node have the same data at step `t` of scenario `k` and at step `t'` of scenario `k'` -/
structure NodeAtStep (k t k' t' : ℕ) (n n' : InputNode) : Prop where
  consumptions : List.Forall₂ (fun x y => val x.cost k t = val y.cost k' t' ∧ val x.quantity k t = val y.quantity k' t')
    n.consumptions n'.consumptions
  productions : List.Forall₂ (fun x y => val x.cost k t = val y.cost k' t' ∧ val x.quantity k t = val y.quantity k' t')
    n.productions n'.productions
  storages : List.Forall₂ (fun x y => val x.capacity k t = val y.capacity k' t' ∧ val x.flowIn k t = val y.flowIn k' t' ∧
    val x.flowOut k t = val y.flowOut k' t' ∧ val x.cost k t = val y.cost k' t' ∧ val x.eff k t = val y.eff k' t')
    n.storages n'.storages
  links : List.Forall₂ (fun x y => x.dest = y.dest ∧ val x.cost k t = val y.cost k' t' ∧
    val x.quantity k t = val y.quantity k' t') n.links n'.links

/-- so has a converter -/
structure ConverterAtStep (k t k' t' : ℕ) (c c' : Converter) : Prop where
  sources : List.Forall₂ (fun x y => x.1 = y.1 ∧ val x.2 k t = val y.2 k' t') c.srcRatios c'.srcRatios
  destNetwork : c.destNetwork = c'.destNetwork
  destNode : c.destNode = c'.destNode
  cost : fval c.cost k t = fval c'.cost k' t'
  max : fval c.max k t = fval c'.max k' t'

/-- `s` has at step `t` of scenario `k` the elements and the data that `s'` has at step `t'` of scenario `k'`; nothing is said of the levels
of storages before -/
structure SameStep (s : Study) (k t : ℕ) (s' : Study) (k' t' : ℕ) : Prop where
  networks : List.Forall₂ (fun p q => p.1 = q.1 ∧ List.Forall₂ (fun x y => x.1 = y.1 ∧
    NodeAtStep k t k' t' x.2 y.2) p.2.nodes q.2.nodes) s.networks s'.networks
  converters : List.Forall₂ (fun p q => p.1 = q.1 ∧ ConverterAtStep k t k' t' p.2 q.2) s.converters s'.converters

/-- a dispatch that does at step `t` what another one does at step `t'` -/
def Spec.Dispatch.patch (D : Dispatch) (t : ℕ) (E : Dispatch) (t' : ℕ) : Dispatch where
  lol g d i u := if u = t then E.lol g d i t' else D.lol g d i u
  prod g d i u := if u = t then E.prod g d i t' else D.prod g d i u
  cap g d i u := if u = t then E.cap g d i t' else D.cap g d i u
  fin g d i u := if u = t then E.fin g d i t' else D.fin g d i u
  fout g d i u := if u = t then E.fout g d i t' else D.fout g d i u
  link g d i u := if u = t then E.link g d i t' else D.link g d i u
  convSrc c p u := if u = t then E.convSrc c p t' else D.convSrc c p u
  convDest c u := if u = t then E.convDest c t' else D.convDest c u

end Hadar
