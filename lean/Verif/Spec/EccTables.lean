import Verif.Spec.EccFixed

/-!
Square roots, and the numbers by which a point is told from its negative.
-/

namespace Verif.Spec.EccFixed

open Verif.Spec Verif.Spec.Ecc

/-- `sqrt` returns a root of whatever has one, and nothing for the rest. -/
structure SquareRoot {F : Type} [Field F] (sqrt : F → Option F) : Prop where
  root : ∀ x r, sqrt x = some r → r ^ 2 = x
  none : ∀ x, sqrt x = none → ¬ IsSquare x

variable {p : Nat} [Fact p.Prime] {b : ZMod p}

/-- `z` fits place `w`: for each digit, y + z is a square and -y + z is not, where y is the second coordinate of the point
the digit stands for. -/
def Fits (n : Nat) (B : Pt b) (w z : Nat) : Prop := ∀ k < 8,
  IsSquare ((coords (windowPoint n B w k)).2 + (z : ZMod p)) ∧ ¬ IsSquare (- (coords (windowPoint n B w k)).2 + (z : ZMod p))

end Verif.Spec.EccFixed
