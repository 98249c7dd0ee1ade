import Verif.Model.Plonk

/-!
Region operations, the single-pass floor planner and the assembly of columns:
`halo2_proofs/src/circuit/floor_planner/single_pass.rs`, `halo2_proofs/src/circuit/layouter.rs`,
`halo2_proofs/src/plonk/keygen.rs`, `halo2_proofs/src/plonk/prover.rs`.
-/

namespace Verif

/-- Errors of synthesis. `panic` stands for any Rust panic. -/
inductive SynthErr
  | notEnoughRows
  | boundsFailure
  | columnNotInPermutation
  | synthesis
  | panic
  deriving DecidableEq, Repr

/-- A cell of a region. Models halo2_proofs/src/circuit.rs `Cell`
(region index, offset, column). -/
structure Cell where
  region : Nat
  offset : Nat
  col : Col
  deriving DecidableEq, Repr

/-- The operations on a region that the circuit uses. Models the calls `enable_selector`,
`assign_advice`, `assign_advice_from_instance` and `constrain_equal` of
halo2_proofs/src/circuit/layouter.rs lines 40-120. Values are those of the final phase, with all
challenges known. -/
inductive Op
  | enable (s : Selector) (offset : Nat)
  | advice (col offset : Nat) (v : Fr)
  | fromInstance (inst instRow col offset : Nat) (v : Fr)
  | equal (a b : Cell)
  deriving DecidableEq

/-- Models halo2_proofs/src/circuit/layouter.rs lines 148-154 (`RegionColumn`). -/
inductive RegionColumn
  | col (c : Col)
  | sel (s : Selector)
  deriving DecidableEq

/-- The column an operation occupies. Models halo2_proofs/src/circuit/layouter.rs lines 205-300
(`impl RegionLayouter for RegionShape`). -/
def Op.column : Op → Option RegionColumn
  | enable s _ => some (.sel s)
  | advice c _ _ => some (.col (.advice c))
  | fromInstance _ _ c _ _ => some (.col (.advice c))
  | equal _ _ => none

/-- The number of rows an operation needs. Same lines as `Op.column`. -/
def Op.rows : Op → Nat
  | enable _ o => o + 1
  | advice _ o _ => o + 1
  | fromInstance _ _ _ o _ => o + 1
  | equal _ _ => 0

/-- `RegionShape.columns`. -/
def regionColumns (ops : List Op) : List RegionColumn := ops.filterMap Op.column

/-- `RegionShape.row_count`. -/
def regionRows (ops : List Op) : Nat := (ops.map Op.rows).foldl max 0

/-- The layouter together with the assembly it writes to. Models `SingleChipLayouter`
(single_pass.rs lines 43-53), keygen's `Assembly` (keygen.rs lines 45-56) and the prover's
`WitnessCollection` (prover.rs lines 133-141), in one: all columns are kept, and each of the
checks of the three is made. -/
structure Assembly where
  usable : Nat
  permutation : List Col
  starts : List Nat := []
  used : RegionColumn → Nat := fun _ => 0
  tables : List Nat := []
  advice : Nat → Nat → Fr := fun _ _ => 0
  fixed : Nat → Nat → Fr := fun _ _ => 0
  selector : Nat → Nat → Bool := fun _ _ => false
  copies : List ((Col × Nat) × (Col × Nat)) := []

namespace Assembly

/-- Updating one cell. -/
def update {α : Type} (f : Nat → Nat → α) (c r : Nat) (v : α) : Nat → Nat → α :=
  fun c' r' => if c' = c ∧ r' = r then v else f c' r'

/-- `enable_selector`. Models keygen.rs lines 74-86. -/
def enable (a : Assembly) (s : Selector) (row : Nat) : Except SynthErr Assembly :=
  if row < a.usable then .ok { a with selector := update a.selector s.index row true }
  else .error .notEnoughRows

/-- `assign_advice`. Models prover.rs lines 185-214 in the last phase. -/
def assignAdvice (a : Assembly) (c row : Nat) (v : Fr) : Except SynthErr Assembly :=
  if row < a.usable then .ok { a with advice := update a.advice c row v }
  else .error .notEnoughRows

/-- `copy`. Models keygen.rs lines 140-154 and the column check of
halo2_proofs/src/plonk/permutation/keygen.rs lines 55-66. -/
def copy (a : Assembly) (l r : Col × Nat) : Except SynthErr Assembly :=
  if l.2 < a.usable ∧ r.2 < a.usable then
    if l.1 ∈ a.permutation ∧ r.1 ∈ a.permutation then .ok { a with copies := a.copies ++ [(l, r)] }
    else .error .columnNotInPermutation
  else .error .notEnoughRows

/-- The absolute position of a cell. -/
def position (a : Assembly) (c : Cell) : Except SynthErr (Col × Nat) :=
  match a.starts[c.region]? with
  | some s => .ok (c.col, s + c.offset)
  | none => .error .panic

/-- One operation in a region that starts at row `start`. Models single_pass.rs lines 274-381. -/
def op (start : Nat) (a : Assembly) : Op → Except SynthErr Assembly
  | .enable s o => a.enable s (start + o)
  | .advice c o v => a.assignAdvice c (start + o) v
  | .fromInstance i r c o v =>
    if r < a.usable then do
      let a ← a.assignAdvice c (start + o) v
      a.copy (.advice c, start + o) (.instance_ i, r)
    else .error .notEnoughRows
  | .equal x y => do
    let p ← a.position x
    let q ← a.position y
    a.copy p q

/-- A list of operations. -/
def ops (start : Nat) : List Op → Assembly → Except SynthErr Assembly
  | [], a => .ok a
  | o :: os, a => do
    let a ← op start a o
    ops start os a

/-- The first row at which a region with the given columns can start.
Models single_pass.rs lines 103-111. -/
def startRow (a : Assembly) (cols : List RegionColumn) : Nat := (cols.map a.used).foldl max 0

/-- `assign_region`. Models single_pass.rs lines 85-159 (no constants). -/
def region (a : Assembly) (os : List Op) : Except SynthErr Assembly :=
  let cols := regionColumns os
  let start := a.startRow cols
  ops start os { a with
    starts := a.starts ++ [start]
    used := fun c => if c ∈ cols then start + regionRows os else a.used c }

/-- `assign_table` for one fixed column filled from row 0 with the given values.
Models single_pass.rs lines 161-220, 398-465 and keygen.rs lines 115-138, 156-177: every row must
be usable, so must the first unused row; the rest of the usable rows get the first value. -/
def table (a : Assembly) (col : Nat) (vals : List Fr) : Except SynthErr Assembly :=
  match vals with
  | [] => .error .synthesis
  | first :: _ =>
    if col ∈ a.tables then .error .synthesis
    else if vals.length < a.usable then
      .ok { a with
        tables := a.tables ++ [col]
        fixed := fun c r => if c = col ∧ r < a.usable then vals.getD r first else a.fixed c r }
    else .error .notEnoughRows

/-- `constrain_instance`. Models single_pass.rs lines 222-234. -/
def constrainInstance (a : Assembly) (c : Cell) (inst row : Nat) : Except SynthErr Assembly := do
  let p ← a.position c
  a.copy p (.instance_ inst, row)

end Assembly

end Verif
