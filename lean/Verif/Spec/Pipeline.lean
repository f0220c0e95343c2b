import Verif.Model.Pipeline

/-!
# What is expected of the workflow pipeline

Read from the documentation of workflow/pipeline.py and of the user manual, apart from the model: only
the shape of data frames and of objects is shared with it.
-/

namespace Hadar

namespace Spec

/-- what is assumed of numpy's generator: `choice([0, 1], n).sum()` is at most `n`, and
`randint(low, high, size)` gives `size` integers in `[low, high)` -/
structure Lawful {σ : Type} (g : Rng σ) : Prop where
  count_le : ∀ f n s, (g.count f n s).1 ≤ n
  randint_length : ∀ low high size s, low < high → (g.randint low high size s).1.length = size
  randint_mem : ∀ low high size s, low < high → ∀ z ∈ (g.randint low high size s).1, low ≤ z ∧ z < high

/-- the columns of a frame have one value per row -/
def Rect (t : Timeline) : Prop := ∀ c ∈ t.cols, c.2.length = t.index.length

/-- a frame given by the user has a column of that name -/
def hasColumn : Data → String → Prop
  | .plain f, n => ∃ v, (n, v) ∈ f.cols
  | .multi t, n => ∃ scn v, ((scn, n), v) ∈ t.cols

/-- a labelled frame has a column of that name -/
def has (t : Timeline) (n : String) : Prop := ∃ scn v, ((scn, n), v) ∈ t.cols

/-- the frame with its scenarios made explicit: plain columns are those of scenario 0 -/
inductive Labelled : Data → Timeline → Prop
  | plain {index cols t} (hi : t.index = index)
      (hc : List.Forall₂ (fun (a : String × List Val) (b : (Cell × String) × List Val) =>
        b = ((Cell.num 0, a.1), a.2)) cols t.cols) : Labelled (.plain ⟨index, cols⟩) t
  | multi (t) : Labelled (.multi t) t

/-- calling stages one after the other, each on what the one before gave -/
inductive Chain {σ : Type} (g : Rng σ) (h : Heap) :
    List (Stage σ) → Timeline → Rand σ → Timeline → Rand σ → Prop
  | nil (t r) : Chain g h [] t r t r
  | cons {st rest t r t1 s t2 r2} (first : st.call g h (.multi t, r) = (.ok t1, s))
      (next : Chain g h rest t1 s.2 t2 r2) : Chain g h (st :: rest) t r t2 r2

/-- what a plug says: nothing, or the columns it needs and the columns it gives -/
inductive Sees (h : Heap) : Plug → Option (List String × List String) → Prop
  | free : Sees h .free none
  | restricted {i o out} (ho : h[o]? = some out) : Sees h (.restricted i o) (some (i, out))

/-- the documented rules of linking (pipeline.py docstrings of `FreePlug.__add__` and
`RestrictedPlug.__add__`): `[a --> b, ε] + [b --> c] = [a --> c, ε]` -/
inductive Links : Option (List String × List String) → Option (List String × List String) →
    Option (List String × List String) → Prop
  | free_free : Links none none none
  | free_left (p) : Links none (some p) (some p)
  | free_right (p) : Links (some p) none (some p)
  | both {i o i' o' i'' o''} (hi : i'' = i)
      (ho : ∀ x, x ∈ o'' ↔ x ∈ o' ∨ (x ∈ o ∧ x ∉ i')) : Links (some (i, o)) (some (i', o')) (some (i'', o''))

/-- the next plug may follow: nothing is known of what a free plug gives; otherwise every column needed
is given -/
def MayFollow : Option (List String × List String) → Option (List String × List String) → Prop
  | none, _ => True
  | some _, none => True
  | some (_, o), some (i', _) => ∀ x ∈ i', x ∈ o

/-- A stage keeps its word in a session: whenever it runs on a frame with the columns it needs, the result
has the columns its plug announces, and those it was told to let through (`extra`: columns of the frame it
does not need). A free stage loses no column. -/
def Honest {σ : Type} (h : Heap) (st : Stage σ) : Prop :=
  match st.plug with
  | .free => ∀ t r t' r', st.process [] t r = (.ok t', r') → ∀ n, has t n → has t' n
  | .restricted i o => ∀ extra t r t' r',
      (∀ e ∈ extra, has t e ∧ e ∉ i) → (∀ e ∈ i, has t e) →
      st.process (h.getD o [] ++ extra) t r = (.ok t', r') →
      ∀ n ∈ h.getD o [] ++ extra, has t' n

/-- no stage is refused its input when running the stages on `t` -/
def NeverRefused {σ : Type} (g : Rng σ) (h : Heap) (stages : List (Stage σ)) (t : Timeline)
    (r : Rand σ) : Prop :=
  ∀ pre st post, stages = pre ++ st :: post → ∀ t1 r1, Chain g h pre t r t1 r1 →
    ∀ n ∈ st.plug.inputs, has t1 n

/-- accepted data never lets a stage down, and the announced columns are there at the end -/
def Sound {σ : Type} (g : Rng σ) (h : Heap) (acc : Plug) (sl : List (Stage σ)) : Prop :=
  ∀ t r, (∀ n ∈ acc.inputs, has t n) → NeverRefused g h sl t r ∧
    ∀ t' r', Chain g h sl t r t' r' →
      (∀ n ∈ acc.outputs h, has t' n) ∧ (acc = .free → ∀ n, has t n → has t' n)

/-- two plugs have lists of outputs of their own -/
def Apart : Plug → Plug → Prop
  | .restricted _ o, .restricted _ o' => o ≠ o'
  | _, _ => True

/-- A frame where the columns come scenario by scenario, with the same names in the same order -/
def Regular (scns : List Cell) (names : List String) (v : Cell → String → List Val) (t : Timeline) : Prop :=
  scns.Nodup ∧ names.Nodup ∧ names ≠ [] ∧
  t.cols = scns.flatMap fun s => names.map fun n => ((s, n), v s n)

/-- number of faults going on at step `t`; a fault starts at some step and lasts some steps -/
def going (faults : List (ℤ × ℤ)) (t : ℕ) : ℕ :=
  (faults.filter fun f => decide (f.1 ≤ (t : ℤ) ∧ (t : ℤ) < f.1 + f.2)).length

/-- the same on `n` steps for any durations: a fault that ends before the first step goes on until as many steps before the last
one (Python counts negative bounds from the end) -/
def goingAny (n : ℕ) (faults : List (ℤ × ℤ)) (t : ℕ) : ℕ :=
  (faults.filter fun f => decide (f.1 ≤ (t : ℤ) ∧ (t : ℤ) < (if f.1 + f.2 < 0 then f.1 + f.2 + n else f.1 + f.2 : ℤ))).length

/-- a value within bounds, when given -/
def Within (lower upper : Option ℚ) (q : ℚ) : Prop := (∀ l ∈ lower, l ≤ q) ∧ (∀ u ∈ upper, q ≤ u)

/-- what clipping does to a value: NaN stays, a value within bounds stays, any other value becomes the
bound it is beyond -/
inductive Clipped (lower upper : Option ℚ) : Val → Val → Prop
  | nan : Clipped lower upper none none
  | inside {x} (h : Within lower upper x) : Clipped lower upper (some x) (some x)
  | below {x l} (h : lower = some l) (hx : x < l) : Clipped lower upper (some x) (some l)
  | above {x u} (h : upper = some u) (hx : u < x) : Clipped lower upper (some x) (some u)

/-- what renaming does to the label of a column -/
inductive Renamed (d : List (String × String)) : String → String → Prop
  | listed {a b} (h : (a, b) ∈ d) : Renamed d a b
  | other {a} (h : ∀ b, (a, b) ∉ d) : Renamed d a a

end Spec

end Hadar
