import Mathlib.Logic.Relation
import Verif.Model.Permutation

/-! Cells tied by copy constraints, independent of the algorithm. -/

namespace Verif.Spec

/-- The equivalence relation generated by the copied pairs. -/
def Tied (copies : List ((Col × Nat) × (Col × Nat))) : Col × Nat → Col × Nat → Prop :=
  Relation.EqvGen fun x y => (x, y) ∈ copies

/-- The cell with column number `c.1` and row `c.2`. -/
def CellAt (columns : List Col) (c : Nat × Nat) (x : Col × Nat) : Prop :=
  columns[c.1]? = some x.1 ∧ c.2 = x.2

/-- The entry of a vector of vectors. -/
def entry {α : Type} (g : List (List α)) (c : Nat × Nat) : Option α := g[c.1]?.bind (·[c.2]?)

/-- A cell of `m` columns of `n` rows. -/
def Inside (m n : Nat) (c : Nat × Nat) : Prop := c.1 < m ∧ c.2 < n

/-- The mapping is defined exactly on the cells of `m` columns and `n` rows, stays inside, and
no two cells have the same image. -/
structure IsPermutation (m n : Nat) (mapping : List (List (Nat × Nat))) : Prop where
  defined : ∀ c, (entry mapping c).isSome = true ↔ Inside m n c
  inside : ∀ c d, entry mapping c = some d → Inside m n d
  injective : ∀ c c' d, entry mapping c = some d → entry mapping c' = some d → c = c'
  surjective : ∀ d, Inside m n d → ∃ c, entry mapping c = some d

/-- Following the mapping from one cell leads to the other. -/
def SameLoop (mapping : List (List (Nat × Nat))) : Nat × Nat → Nat × Nat → Prop :=
  Relation.ReflTransGen fun c d => entry mapping c = some d

end Verif.Spec
