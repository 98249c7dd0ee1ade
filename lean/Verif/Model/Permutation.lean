import Verif.Model.Compile
import Verif.Model.Layout

/-!
The permutation of cells built from copy constraints: `halo2_proofs/src/plonk/permutation/keygen.rs`.
-/

namespace Verif

namespace Table

/-- `g[c.0][c.1]` of a vector of vectors. -/
def at_ {α : Type} (g : List (List α)) (c : Nat × Nat) : Except Panic α :=
  match g[c.1]? with
  | none => .error .index
  | some col =>
    match col[c.2]? with
    | none => .error .index
    | some v => .ok v

/-- `g[c.0][c.1] = v` of a vector of vectors. -/
def put {α : Type} (g : List (List α)) (c : Nat × Nat) (v : α) : Except Panic (List (List α)) :=
  match g[c.1]? with
  | none => .error .index
  | some col =>
    if c.2 < col.length then .ok (g.set c.1 (col.set c.2 v)) else .error .index

end Table

/-- Models halo2_proofs/src/plonk/permutation/keygen.rs lines 17-26. A pair is column number (in the
list `columns`) and row. -/
structure PermAssembly where
  columns : List Col
  mapping : List (List (Nat × Nat))
  aux : List (List (Nat × Nat))
  sizes : List (List Nat)
  deriving DecidableEq

namespace PermAssembly

/-- Models halo2_proofs/src/plonk/permutation/keygen.rs lines 29-47. -/
def new (n : Nat) (columns : List Col) : PermAssembly :=
  let cells := (List.range columns.length).map fun i => (List.range n).map fun j => (i, j)
  ⟨columns, cells, cells, List.replicate columns.length (List.replicate n 1)⟩

/-- The loop that gives all cells of a cycle the representative `left`.
Models halo2_proofs/src/plonk/permutation/keygen.rs lines 91-97. `fuel` bounds the number of
iterations. -/
def relabel (mapping : List (List (Nat × Nat))) (left start : Nat × Nat) :
    Nat → Nat × Nat → List (List (Nat × Nat)) → Except Panic (List (List (Nat × Nat)))
  | 0, _, _ => .error .hang
  | fuel + 1, i, aux =>
    match Table.put aux i left with
    | .error e => .error e
    | .ok aux =>
      match Table.at_ mapping i with
      | .error e => .error e
      | .ok i => if i = start then .ok aux else relabel mapping left start fuel i aux

/-- `Vec::position`. -/
def position (columns : List Col) (c : Col) : Option Nat := columns.findIdx? (· == c)

/-- Merging the cycles of two cells. Models halo2_proofs/src/plonk/permutation/keygen.rs lines
76-101. -/
def merge (fuel : Nat) (a : PermAssembly) (left right : Nat × Nat) : Except Panic PermAssembly := do
  let leftCycle ← Table.at_ a.aux left
  let rightCycle ← Table.at_ a.aux right
  if leftCycle = rightCycle then
    return a
  let s1 ← Table.at_ a.sizes leftCycle
  let s2 ← Table.at_ a.sizes rightCycle
  let (leftCycle, rightCycle) := if s1 < s2 then (rightCycle, leftCycle) else (leftCycle, rightCycle)
  let s1 ← Table.at_ a.sizes leftCycle
  let s2 ← Table.at_ a.sizes rightCycle
  let sizes ← Table.put a.sizes leftCycle (s1 + s2)
  let aux ← relabel a.mapping leftCycle rightCycle fuel rightCycle a.aux
  let tmp ← Table.at_ a.mapping left
  let r ← Table.at_ a.mapping right
  let mapping ← Table.put a.mapping left r
  let mapping ← Table.put mapping right tmp
  return ⟨a.columns, mapping, aux, sizes⟩

/-- Models halo2_proofs/src/plonk/permutation/keygen.rs lines 49-104. The outer result is a panic or
an endless loop, the inner one the error returned. Sizes are added without overflow: they are at
most the number of cells. -/
def copy (fuel : Nat) (a : PermAssembly) (left right : Col × Nat) :
    Except Panic (Except SynthErr PermAssembly) := do
  match position a.columns left.1 with
  | none => return .error .columnNotInPermutation
  | some l =>
    match position a.columns right.1 with
    | none => return .error .columnNotInPermutation
    | some r =>
      match a.mapping[l]?, a.mapping[r]? with
      | some lc, some rc =>
        if left.2 ≥ lc.length ∨ right.2 ≥ rc.length then
          return .error .boundsFailure
        let a ← merge fuel a (l, left.2) (r, right.2)
        return .ok a
      | _, _ => .error .index

/-- A sequence of calls of `copy`, stopping at the first error. -/
def copyAll (fuel : Nat) : List ((Col × Nat) × (Col × Nat)) → PermAssembly →
    Except Panic (Except SynthErr PermAssembly)
  | [], a => .ok (.ok a)
  | (l, r) :: cs, a =>
    match copy fuel a l r with
    | .error e => .error e
    | .ok (.error e) => .ok (.error e)
    | .ok (.ok a) => copyAll fuel cs a

end PermAssembly

end Verif
