import Verif.Model.Numeric

/-!
# Specification of input values (independent of `create` and `__getitem__`)

From docs/source/architecture/optimizer.rst ("a number, a list of `horizon` values, a column of
`nb_scn` values, or a `nb_scn` x `horizon` matrix").
-/

namespace Hadar.Spec

open Hadar

/-- nested list of a row of numbers -/
def jrow (r : List ℚ) : Json := .arr (r.map .num)

/-- nested list of rows of numbers -/
def jrows (rs : List (List ℚ)) : Json := .arr (rs.map jrow)

/-- The number the user means at scenario `s`, time `t`, for a horizon `h`:
`Means h v s t q`. -/
inductive MeansJson (h : ℕ) : Json → ℕ → ℕ → ℚ → Prop
  /-- one number, for ever -/
  | number (q : ℚ) (s t : ℕ) : MeansJson h (.num q) s t q
  /-- one value per time step -/
  | perTime (r : List ℚ) (s t : ℕ) (q : ℚ) (hl : r.length = h) (hq : r[t]? = some q) :
      MeansJson h (jrow r) s t q
  /-- one value per scenario -/
  | perScenario (c : List ℚ) (s t : ℕ) (q : ℚ) (hq : c[s]? = some q) :
      MeansJson h (jrows (c.map fun x => [x])) s t q
  /-- one value per scenario and time step -/
  | full (m : List (List ℚ)) (r : List ℚ) (s t : ℕ) (q : ℚ) (hl : ∀ r ∈ m, r.length = h)
      (hr : m[s]? = some r) (hq : r[t]? = some q) : MeansJson h (jrows m) s t q

/-- The number the user means at scenario `s`, time `t`. Arrays are read as numpy shows them. -/
inductive Means (h n : ℕ) : Raw → ℕ → ℕ → ℚ → Prop
  | number (q : ℚ) (s t : ℕ) : Means h n (.num q) s t q
  | perTime (a : NdArray) (s t : ℕ) (q : ℚ) (hs : a.shape = [h]) (hq : a.data[t]? = some q) :
      Means h n (.array a) s t q
  | perScenario (a : NdArray) (s t : ℕ) (q : ℚ) (hs : a.shape = [n, 1])
      (hq : a.data[s]? = some q) : Means h n (.array a) s t q
  | full (a : NdArray) (s t : ℕ) (q : ℚ) (hs : a.shape = [n, h])
      (hq : a.data[s * h + t]? = some q) : Means h n (.array a) s t q
  | list (j : Json) (s t : ℕ) (q : ℚ) (hj : MeansJson h j s t q) : Means h n (.json j) s t q
  /-- a serialised value -/
  | dict (o : List (String × Json)) (j : Json) (s t : ℕ) (q : ℚ)
      (ho : Dict.get? o "value" = some j) (hj : MeansJson h j s t q) :
      Means h n (.json (.obj o)) s t q

/-- Nested lists that have an acceptable size. -/
inductive AcceptsJson (h n : ℕ) : Json → Prop
  | number (q : ℚ) : AcceptsJson h n (.num q)
  | perTime (r : List ℚ) (hl : r.length = h) : AcceptsJson h n (jrow r)
  | perScenario (c : List ℚ) (hl : c.length = n) (h0 : c ≠ []) :
      AcceptsJson h n (jrows (c.map fun x => [x]))
  | full (m : List (List ℚ)) (hm : m.length = n) (h0 : m ≠ []) (hl : ∀ r ∈ m, r.length = h) :
      AcceptsJson h n (jrows m)

/-- Values that must be accepted for a study of horizon `h` with `n` scenarios. -/
inductive Accepts (h n : ℕ) : Raw → Prop
  | number (q : ℚ) : Accepts h n (.num q)
  | built (v : NumVal) : Accepts h n (.val v)
  | array (a : NdArray) (hs : a.shape = [h] ∨ a.shape = [n, 1] ∨ a.shape = [n, h]) :
      Accepts h n (.array a)
  | list (j : Json) (hj : AcceptsJson h n j) : Accepts h n (.json j)
  | dict (o : List (String × Json)) (j : Json) (ho : Dict.get? o "value" = some j)
      (hj : AcceptsJson h n j) : Accepts h n (.json (.obj o))

end Hadar.Spec
