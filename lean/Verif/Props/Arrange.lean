import Verif.Proofs.Arrange
import Verif.Props.Query

/-! # C111: the order of the calls of a query -/

namespace Hadar.Props

open Hadar Spec

/-- C111: the calls that follow `analyzer.network(g)` can be made in any order: the query raises in all orders or in none, needs more calls in
all orders or in none, and in all orders its table shows the same lines with the same values. The levels of a table are the columns of the
filters, in the order of the calls, less the first ones when they hold one value only; lines are sorted by them. This is so for any tables, even those which are wrong (C34,
C36). -/
theorem C111 (a : Analyzer) (g : IndexArg) {calls calls' : List (IndexKind × IndexArg)} (h : calls.Perm calls') :
    SameOutcome ((.network, g) :: calls) ((.network, g) :: calls') (a.ask g calls) (a.ask g calls') :=
  ask_order a g h

/-- C111: the order of the values given to a call does not matter at all -/
theorem C111_values (a : Analyzer) {g g' : IndexArg} {calls calls' : List (IndexKind × IndexArg)} (hg : SameValues g g')
    (hc : List.Forall₂ (fun c c' => c.1 = c'.1 ∧ SameValues c.2 c'.2) calls calls') : SameTable (a.ask g calls) (a.ask g' calls') :=
  ask_alike a hg hc

/-! ### Concrete cases -/

/-- `analyzer.network("elec").scn(slice(0, 2)).time().production("nuke").node()` -/
def otherCallList : List (IndexKind × IndexArg) :=
  [(.scn, .slice (some 0) (some 2) none), (.time, .list []), (.prod, .one (.str "nuke")), (.node, .none)]

/-- levels and lines of the answer of the example study -/
def asked (g : IndexArg) (calls : List (IndexKind × IndexArg)) : Option (List String × List (List Cell × Dict String Cell)) :=
  match Analyzer.init (fun _ _ _ => .nan) anStudy anResult with
  | .ok a => match a.ask g calls with
    | .ok (.table (some pt)) => some (pt.levels, pt.lines)
    | _ => none
  | _ => none

/-- the same lines, sorted and named otherwise -/
example : (match asked (.one (.str "elec")) anCallList, asked (.one (.str "elec")) otherCallList with
    | some (levels, lines), some (levels', lines') => decide (levels = ["node", "name", "t", "scn"] ∧ levels' = ["scn", "t", "name", "node"] ∧
        lines ≠ [] ∧ lines.map Prod.snd ≠ lines'.map Prod.snd ∧ (lines.map fun l => (l.1.reverse, l.2)).Perm lines')
    | _, _ => false) = true := by decide +kernel

example : ∃ lines pt pt', anAnalyzer.ask (.one (.str "elec")) anCallList = .ok (.table (some pt)) ∧
    anAnalyzer.ask (.one (.str "elec")) otherCallList = .ok (.table (some pt')) ∧
    Presents ((.network, .one (.str "elec")) :: anCallList) lines pt ∧ Presents ((.network, .one (.str "elec")) :: otherCallList) lines pt' := by
  obtain ⟨pt, h⟩ := anCalls_answer
  have := C111 anAnalyzer (.one (.str "elec")) (calls := anCallList) (calls' := otherCallList) (by decide)
  rw [h] at this
  cases h' : anAnalyzer.ask (.one (.str "elec")) otherCallList with
  | error e => rw [h'] at this; cases this
  | ok r =>
    rw [h'] at this
    cases this with
    | table lines _ pt' h1 h2 => exact ⟨lines, pt, pt', h, rfl, h1, h2⟩

/-- the order of values -/
example (a : Analyzer) : SameTable
    (a.ask (.one (.str "elec")) [(.node, .list [.str "a", .str "b"]), (.cons, .none), (.time, .one (.num 0)), (.scn, .tuple [.num 0, .num 1])])
    (a.ask (.one (.str "elec")) [(.node, .list [.str "b", .str "a"]), (.cons, .none), (.time, .one (.num 0)), (.scn, .tuple [.num 1, .num 0])]) :=
  C111_values a (.same _) (.cons ⟨rfl, .lists _ _ (by decide)⟩ (.cons ⟨rfl, .same _⟩ (.cons ⟨rfl, .same _⟩
    (.cons ⟨rfl, .tuples _ _ (by decide)⟩ .nil))))

end Hadar.Props
