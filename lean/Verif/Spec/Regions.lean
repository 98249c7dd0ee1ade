import Verif.Model.Layout

/-! What it means that regions are placed without overlap. -/

namespace Verif

namespace Spec

/-- The operation, in a region that starts at row `start`, uses row `r` of column `c`. -/
def Uses (start : Nat) (c : RegionColumn) (r : Nat) : Op → Prop
  | .enable s o => c = .sel s ∧ r = start + o
  | .advice k o _ => c = .col (.advice k) ∧ r = start + o
  | .fromInstance _ _ k o _ => c = .col (.advice k) ∧ r = start + o
  | .equal _ _ => False

/-- The operation writes `v` at offset `o` of advice column `c`. -/
def WritesValue (c o : Nat) (v : Fr) : Op → Prop
  | .advice c' o' v' => c = c' ∧ o = o' ∧ v = v'
  | .fromInstance _ _ c' o' v' => c = c' ∧ o = o' ∧ v = v'
  | _ => False

/-- The last value a region writes at offset `o` of advice column `c` is `v`. -/
def LastWrite (block : List Op) (c o : Nat) (v : Fr) : Prop :=
  ∃ before op after, block = before ++ op :: after ∧ WritesValue c o v op ∧
    ∀ x ∈ after, ∀ v', ¬ WritesValue c o v' x

/-- Two regions have a column in common. -/
def Share (b b' : List Op) : Prop := ∃ o ∈ b, ∃ o' ∈ b', ∃ c, o.column = some c ∧ o'.column = some c

/-- The number of rows of a region: one more than its greatest offset. -/
def Height (b : List Op) (h : Nat) : Prop :=
  (∀ o ∈ b, o.rows ≤ h) ∧ (h = 0 ∨ ∃ o ∈ b, o.rows = h)

end Spec

/-- A sequence of regions. Models successive calls of `assign_region`
(halo2_proofs/src/circuit/floor_planner/single_pass.rs lines 82-154). -/
def Assembly.regions (a : Assembly) (blocks : List (List Op)) : Except SynthErr Assembly :=
  blocks.foldlM Assembly.region a

end Verif
