import Verif.Model.FloorPlanner
import Mathlib.Order.Bounds.Defs
import Mathlib.Data.List.Dedup

/-! What a floor planner should do. -/

namespace Verif.Spec

open FloorPlanner

variable {V : Type}

/-- The cell that a call in a region writes: a column (or selector) and a row counted from the start of the
region. -/
def cellOf : Call V → Option (RegionColumn × Nat)
  | .enable s o => some (.sel s, o)
  | .advice c o _ => some (.col (.advice c), o)
  | .constant c o _ => some (.col (.advice c), o)
  | .fromInstance _ _ c o _ => some (.col (.advice c), o)
  | .fixed c o _ => some (.col (.fixed c), o)
  | .equal _ _ => none
  | .equalConstant _ _ => none

/-- What a call in a region with the given start should become, if all regions start as listed. -/
inductive Puts (starts : List Nat) (start : Nat) : Call V → List (Placed V) → Prop
  | enable (s : Selector) (o : Nat) : Puts starts start (.enable s o) [.enable s (start + o)]
  | advice (c o : Nat) (v : V) : Puts starts start (.advice c o v) [.advice c (start + o) v]
  | constant (c o : Nat) (v : V) : Puts starts start (.constant c o v) [.advice c (start + o) v]
  | fromInstance (i r c o : Nat) (v : V) : Puts starts start (.fromInstance i r c o v)
      [.advice c (start + o) v, .copy (.advice c, start + o) (.instance_ i, r)]
  | fixed (c o : Nat) (v : V) : Puts starts start (.fixed c o v) [.fixed c (start + o) v]
  | equal (a b : Cell) (x y : Nat) (ha : starts[a.region]? = some x) (hb : starts[b.region]? = some y) :
      Puts starts start (.equal a b) [.copy (a.col, x + a.offset) (b.col, y + b.offset)]
  | equalConstant (c : Cell) (v : V) : Puts starts start (.equalConstant c v) []

/-- All calls, each with the number of its region. -/
def allCalls (regions : List (List (Call V))) : List (Nat × Call V) :=
  regions.zipIdx.flatMap fun r => r.1.map fun c => (r.2, c)

/-- The constants that are asked for, each with the cell that shall be equal to it. -/
def wanted (regions : List (List (Call V))) : List (V × Cell) :=
  (allCalls regions).filterMap fun ic =>
    match ic.2 with
    | .constant c o v => some (v, ⟨ic.1, o, .advice c⟩)
    | .equalConstant c v => some (v, c)
    | _ => none

/-- A constant in a fixed cell, with a copy to the cell that shall be equal to it. -/
def Supplies (starts : List Nat) (x : (Nat × Nat) × (V × Cell)) (ps : List (Placed V)) : Prop :=
  ∃ s, starts[x.2.2.region]? = some s ∧
    ps = [.fixed x.1.1 x.1.2 x.2.1, .copy (.fixed x.1.1, x.1.2) (x.2.2.col, s + x.2.2.offset)]

/-- A correct layout: no two regions share a cell; each constant has a cell of its own, in a column for constants; and
exactly the calls of the circuit are made, those of regions in their order, together with the constants. -/
structure Laid (constants : List Nat) (regions : List (List (Call V))) (starts : List Nat)
    (spots : List (Nat × Nat)) (out : List (Placed V)) : Prop where
  count : starts.length = regions.length
  apart : ∀ i j x y s t, (i, x) ∈ allCalls regions → (j, y) ∈ allCalls regions → i ≠ j →
    starts[i]? = some s → starts[j]? = some t →
    ∀ col o o', cellOf x = some (col, o) → cellOf y = some (col, o') → s + o ≠ t + o'
  supplied : spots.length = (wanted regions).length
  distinct : spots.Nodup
  columns : ∀ p ∈ spots, p.1 ∈ constants
  own : ∀ p ∈ spots, ∀ i x s, (i, x) ∈ allCalls regions → starts[i]? = some s →
    ∀ o, cellOf x = some (.col (.fixed p.1), o) → s + o ≠ p.2
  calls : ∃ blocks consts, out.Perm (blocks.flatten ++ consts.flatten) ∧ blocks.flatten.Sublist out ∧
    List.Forall₂ (fun ic b => ∃ s, starts[ic.1]? = some s ∧ Puts starts s ic.2 b) (allCalls regions) blocks ∧
    List.Forall₂ (Supplies starts) (spots.zip (wanted regions)) consts

/-- The second pass keeps to what was measured in the first: the same columns, and no more rows. -/
def Covered (measured calls : List (Call V)) : Prop :=
  ∀ x ∈ calls, ∀ col o, cellOf x = some (col, o) →
    (∃ m ∈ measured, ∃ o', cellOf m = some (col, o')) ∧
    ∃ m ∈ measured, ∃ col' o', cellOf m = some (col', o') ∧ o ≤ o'

/-- The cells that the calls refer to are cells of the regions allowed by `ok`. -/
def RefersTo (ok : Nat → Prop) : Call V → Prop
  | .equal a b => ok a.region ∧ ok b.region
  | .equalConstant c _ => ok c.region
  | _ => True

/-- A region that spans the rows from `s` on, `n` of them, and one that spans those from `t` on, `m` of
them, are apart. -/
def Clear (s n t m : Nat) : Prop := s + n ≤ t ∨ t + m ≤ s

/-- Regions with the given columns and numbers of rows are put, one after the other, at the first row at
which they are clear of the ones before with which they share a column. -/
def FirstFit (l : List (Nat × (List RegionColumn × Nat))) : Prop :=
  ∀ before after s cols n, l = before ++ (s, cols, n) :: after →
    IsLeast {r | ∀ p ∈ before, (∃ c, c ∈ cols ∧ c ∈ p.2.1) → Clear r n p.1 p.2.2} s

/-- The columns of a region, each once. -/
def columnsUsed (calls : List (Call V)) : List RegionColumn := ((calls.filterMap cellOf).map (·.1)).dedup

/-- The rows of a region: up to the last one that is written. -/
def height (calls : List (Call V)) : Nat := ((calls.filterMap cellOf).map (·.2 + 1)).foldr max 0

/-- The number of advice columns times that of rows. -/
def adviceArea (columns : List RegionColumn) (rows : Nat) : Nat :=
  (columns.filter fun c => match c with | .col (.advice _) => true | _ => false).length * rows

/-- A cell that can be used for a constant: in a column for constants, above the end of the last region, and not
in a region that uses the column. -/
def Spare (constants : List Nat) (measured : List (List (Call V))) (starts : List Nat) (p : Nat × Nat) : Prop :=
  p.1 ∈ constants ∧
  (∃ (i : Nat) (m : List (Call V)) (s : Nat), measured[i]? = some m ∧ starts[i]? = some s ∧ p.2 < s + height m) ∧
  ∀ (i : Nat) (m : List (Call V)) (s : Nat), measured[i]? = some m → starts[i]? = some s →
    .col (.fixed p.1) ∈ columnsUsed m → Clear p.2 1 s (height m)

end Verif.Spec
