import Verif.Model.Plonk

/-! What a constraint system with selectors, and one with fixed columns in their place, have in
common. -/

namespace Verif

namespace Spec

/-- The selectors that occur in an expression. -/
def selectorsIn : Expr → List Selector
  | .selector s => [s]
  | .neg a => selectorsIn a
  | .sum a b => selectorsIn a ++ selectorsIn b
  | .product a b => selectorsIn a ++ selectorsIn b
  | .scaled a _ => selectorsIn a
  | _ => []

/-- The fixed columns that occur in an expression. -/
def fixedIn : Expr → List Nat
  | .fixed c _ => [c]
  | .neg a => fixedIn a
  | .sum a b => fixedIn a ++ fixedIn b
  | .product a b => fixedIn a ++ fixedIn b
  | .scaled a _ => fixedIn a
  | _ => []

/-- All expressions of a constraint system. -/
def expressions (cs : CS) : List Expr :=
  cs.gates.flatten ++ cs.lookups.flatMap fun l => l.input ++ l.table

/-- The constraint system was built by the operators without a panic: gates are well formed,
selectors and fixed columns have been allocated, a selector is either simple or complex, and
lookups contain no simple selector. -/
structure Sane (cs : CS) (simple : Nat → Bool) : Prop where
  gates : ∀ e ∈ cs.gates.flatten, e.wellFormed = true
  selectors : ∀ e ∈ expressions cs, ∀ s ∈ selectorsIn e,
    s.index < cs.numSelectors ∧ s.simple = simple s.index
  fixed : ∀ e ∈ expressions cs, ∀ c ∈ fixedIn e, c < cs.numFixed
  lookups : ∀ l ∈ cs.lookups, ∀ e ∈ l.input ++ l.table, ∀ s ∈ selectorsIn e, s.simple = false

/-- The grid `g` has selectors switched as in `activations`; the grid `g'` has the new fixed
columns `cols` after the `numFixed` old ones; apart from that they are the same. -/
structure Replaced (cs : CS) (n : Nat) (activations : List (List Bool)) (cols : List (List Fr))
    (g g' : Grid) : Prop where
  advice : g'.advice = g.advice
  instance_ : g'.instance_ = g.instance_
  challenge : g'.challenge = g.challenge
  fixed : ∀ c, c < cs.numFixed → g'.fixed c = g.fixed c
  selector : ∀ (i : Nat) (act : List Bool), activations[i]? = some act → ∀ row, row < n →
    (g.selector i row = true ↔ act[row]? = some true)
  new : ∀ (i : Nat) (col : List Fr), cols[i]? = some col → ∀ row, row < n →
    some (g'.fixed (cs.numFixed + i) row) = col[row]?

end Spec

end Verif
