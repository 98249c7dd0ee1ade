import Verif.Model.EccFixed
import Verif.Spec.Ecc
import Mathlib.Algebra.BigOperators.Group.Finset.Basic
import Mathlib.Data.Nat.Digits.Defs

/-!
Tables for the multiples of a fixed point.
-/

namespace Verif.Spec.EccFixed

open Verif.Gadget Verif.Spec.Gadget Verif.Spec Verif.Spec.Ecc

variable {p : Nat} [Fact p.Prime] {b : ZMod p}

/-- The point that digit `k` in place `w` of `n` stands for: (k + 2) · 8^w times the point, and in the last place
k · 8^w times the point less what is too much in the others. -/
noncomputable def windowPoint (n : Nat) (B : Pt b) (w k : Nat) : Pt b :=
  if w + 1 < n then ((k + 2) * 8 ^ w) • B else (k * 8 ^ w) • B - (∑ j ∈ Finset.range w, 2 * 8 ^ j) • B

/-- The table is that of the point `B`: the polynomials of degree 7 give the first coordinates, and `z` tells the second
coordinate from its negative, as y + z is the square of `u` and -y + z is no square. -/
structure TableOf (n : Nat) (B : Pt b) (base : FixedBase p) : Prop where
  generator : (base.x, base.y) = coords B
  sizes : base.lagrange.length = n ∧ base.z.length = n ∧ base.u.length = n
  x : ∀ w k : Nat, w < n → k < 8 → ∑ j ∈ Finset.range 8, (base.lagrange.getD w []).getD j 0 * (k : ZMod p) ^ j =
    (coords (windowPoint n B w k)).1
  negative : ∀ w k : Nat, w < n → k < 8 → ¬ IsSquare (- (coords (windowPoint n B w k)).2 + (base.z.getD w 0 : ZMod p))
  root : ∀ w k : Nat, w < n → k < 8 → ∃ r, base.u[w]?.bind (·[k]?) = some r ∧
    r ^ 2 = (coords (windowPoint n B w k)).2 + (base.z.getD w 0 : ZMod p)

end Verif.Spec.EccFixed
