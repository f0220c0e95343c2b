import Verif.Spec.Sensitivity
import Verif.Spec.Prices
import Verif.Spec.Relative

/-!
# Each network has its own unit of energy

Electricity in MWh, gas in cubic metres: what happens when the energy of each network is counted in another unit.
-/

namespace Hadar.Spec

open Hadar

/-- C141: the second converter is the first one, energy of network `g` being counted in a unit in which one former unit makes `u g`:
quantities are multiplied, costs by unit divided; a ratio, units given for one unit taken, is multiplied by the one and divided by the
other -/
structure UnitConverter (u : String → ℚ) (h k k' : ℕ) (c c' : Converter) : Prop where
  sources : List.Forall₂ (fun a b => a.1 = b.1 ∧
    ∀ t < h, val b.2 k' t = val a.2 k t * u c.destNetwork / u (srcPair a.1).1) c.srcRatios c'.srcRatios
  destNetwork : c.destNetwork = c'.destNetwork
  destNode : c.destNode = c'.destNode
  cost : ∀ t < h, fval c.cost k t = u c.destNetwork * fval c'.cost k' t
  max : ∀ t < h, fval c'.max k' t = u c.destNetwork * fval c.max k t

/-- C141: the second study is the first one, energy of network `g` being counted in a unit in which one former unit makes `u g` -/
def OtherUnits (u : String → ℚ) (s : Study) (k : ℕ) (s' : Study) (k' : ℕ) : Prop :=
  Alike (fun g _ => NodeCmp s.horizon k k' (fun x y => x = u g * y) (fun x y => y = u g * x) (fun x y => y = u g * x))
    (fun _ => UnitConverter u s.horizon k k') s s'

/-- the unit of what a converter gives -/
def unitOf (s : Study) (u : String → ℚ) (c : String) : ℚ :=
  match s.converters.get? c with
  | some p => u p.destNetwork
  | none => 0

/-- C141: the same flows in the other units -/
def inUnits (s : Study) (u : String → ℚ) (D : Dispatch) : Dispatch where
  lol g d i t := u g * D.lol g d i t
  prod g d i t := u g * D.prod g d i t
  cap g d i t := u g * D.cap g d i t
  fin g d i t := u g * D.fin g d i t
  fout g d i t := u g * D.fout g d i t
  link g d i t := u g * D.link g d i t
  convSrc c p t := u p.1 * D.convSrc c p t
  convDest c t := unitOf s u c * D.convDest c t

end Hadar.Spec
