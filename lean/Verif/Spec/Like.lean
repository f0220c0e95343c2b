import Verif.Spec.Sensitivity
import Verif.Spec.Numeric
import Verif.Spec.Study

/-!
# Two programs that make the same calls with other data (independent of the code)
-/

namespace Hadar.Spec

open Hadar

/-- Scenario `i` of studies of `n` scenarios is compared with scenario `k` of studies of `n'` scenarios, over the same horizon `h`:
`cost` compares costs, `limit` what bounds productions, links, storages and converters, `data` what is asked by consumptions and what is
stored at first. -/
structure Pairing where
  h : ℕ
  n : ℕ
  i : ℕ
  n' : ℕ
  k : ℕ
  cost : ℚ → ℚ → Prop
  limit : ℚ → ℚ → Prop
  data : ℚ → ℚ → Prop

/-- scenario `i` among `n` says what scenario `k` among `n'` says -/
def Pairing.same (h n i n' k : ℕ) : Pairing := ⟨h, n, i, n', k, Eq, Eq, Eq⟩

/-- scenario `i` among `n`, against scenario `k` among `n'` where nothing is dearer nor more limited and the loads are the same -/
def Pairing.easier (h n i n' k : ℕ) : Pairing := ⟨h, n, i, n', k, fun x y => y ≤ x, fun x y => x ≤ y, Eq⟩

/-- costs multiplied by `a`, quantities by `b` -/
def Pairing.rescaled (a b : ℚ) (h n i n' k : ℕ) : Pairing := ⟨h, n, i, n', k, fun x y => y = a * x, fun x y => y = b * x, fun x y => y = b * x⟩

/-- the pairing is between existing scenarios, and times exist -/
structure Pairing.Ok (P : Pairing) : Prop where
  horizon : 0 < P.h
  left : P.i < P.n
  right : P.k < P.n'

/-- data (numbers, lists, arrays) of the right sizes, the values of which are related by `R` -/
structure LikeData (P : Pairing) (R : ℚ → ℚ → Prop) (r r' : Raw) : Prop where
  raw : (∀ v, r ≠ .val v) ∧ ∀ v, r' ≠ .val v
  accepted : Accepts P.h P.n r ∧ Accepts P.h P.n' r'
  values : ∀ t < P.h, ∃ q q', Means P.h P.n r P.i t q ∧ Means P.h P.n' r' P.k t q' ∧ R q q'

/-- limits: moreover both are negative at all times in all scenarios, or none is -/
structure LikeLimit (P : Pairing) (R : ℚ → ℚ → Prop) (r r' : Raw) : Prop extends LikeData P R r r' where
  negative : Everywhere P.h P.n r (· < 0) ↔ Everywhere P.h P.n' r' (· < 0)

/-- storages with the same name; efficiencies are the same -/
structure LikeStorage (P : Pairing) (a a' : Study.StorageArgs) : Prop where
  name : a.name = a'.name
  capacity : LikeLimit P P.limit a.capacity a'.capacity
  flowIn : LikeLimit P P.limit a.flowIn a'.flowIn
  flowOut : LikeLimit P P.limit a.flowOut a'.flowOut
  cost : LikeData P P.cost a.cost a'.cost
  init : P.data a.initCapacity a'.initCapacity ∧ (a.initCapacity < 0 ↔ a'.initCapacity < 0)
  eff : LikeLimit P Eq a.eff a'.eff ∧ (Everywhere P.h P.n a.eff (1 < ·) ↔ Everywhere P.h P.n' a'.eff (1 < ·))

/-- C118: the same call with other data -/
inductive LikeCall (P : Pairing) : Call → Call → Prop
  | studyNetwork (g : String) : LikeCall P (.studyNetwork g) (.studyNetwork g)
  | studyAddNetwork (g : String) : LikeCall P (.studyAddNetwork g) (.studyAddNetwork g)
  | studyAddNode (g d : String) : LikeCall P (.studyAddNode g d) (.studyAddNode g d)
  | studyAddLink (g a b : String) {c c' q q' : Raw} (hc : LikeData P P.cost c c') (hq : LikeLimit P P.limit q q') :
      LikeCall P (.studyAddLink g a b c q) (.studyAddLink g a b c' q')
  | netNode (ref : ℕ) (d : String) : LikeCall P (.netNode ref d) (.netNode ref d)
  | netLink (ref : ℕ) (a b : String) {c c' q q' : Raw} (hc : LikeData P P.cost c c') (hq : LikeLimit P P.limit q q') :
      LikeCall P (.netLink ref a b c q) (.netLink ref a b c' q')
  | netNetwork (ref : ℕ) (g : String) : LikeCall P (.netNetwork ref g) (.netNetwork ref g)
  | netConverter (ref : ℕ) (x g d : String) {m m' c c' : Raw} (hm : LikeData P P.limit m m') (hc : LikeData P P.cost c c') :
      LikeCall P (.netConverter ref x g d m c) (.netConverter ref x g d m' c')
  | nodeConsumption (ref : ℕ) (x : String) {c c' q q' : Raw} (hc : LikeData P P.cost c c') (hq : LikeLimit P P.data q q') :
      LikeCall P (.nodeConsumption ref x c q) (.nodeConsumption ref x c' q')
  | nodeProduction (ref : ℕ) (x : String) {c c' q q' : Raw} (hc : LikeData P P.cost c c') (hq : LikeLimit P P.limit q q') :
      LikeCall P (.nodeProduction ref x c q) (.nodeProduction ref x c' q')
  | nodeStorage (ref : ℕ) {a a' : Study.StorageArgs} (ha : LikeStorage P a a') : LikeCall P (.nodeStorage ref a) (.nodeStorage ref a')
  | nodeNode (ref : ℕ) (d : String) : LikeCall P (.nodeNode ref d) (.nodeNode ref d)
  | nodeLink (ref : ℕ) (a b : String) {c c' q q' : Raw} (hc : LikeData P P.cost c c') (hq : LikeLimit P P.limit q q') :
      LikeCall P (.nodeLink ref a b c q) (.nodeLink ref a b c' q')
  | nodeNetwork (ref : ℕ) (g : String) : LikeCall P (.nodeNetwork ref g) (.nodeNetwork ref g)
  | nodeConverter (ref : ℕ) (x g d : String) {m m' c c' : Raw} (hm : LikeData P P.limit m m') (hc : LikeData P P.cost c c') :
      LikeCall P (.nodeConverter ref x g d m c) (.nodeConverter ref x g d m' c')
  | nodeToConverter (ref : ℕ) (x : String) {r r' : Raw} (hr : LikeData P Eq r r') :
      LikeCall P (.nodeToConverter ref x r) (.nodeToConverter ref x r')

end Hadar.Spec
