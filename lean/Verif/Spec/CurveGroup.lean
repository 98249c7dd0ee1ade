import Mathlib.AlgebraicGeometry.EllipticCurve.Affine.Point
import Verif.Model.Curve

/-!
The group of the points of `y² = x³ + b` is the one of Mathlib. What coordinates stand for.
-/

namespace Verif.Spec

variable {F : Type} [Field F]

/-- The curve `y² = x³ + b`. -/
def curve (b : F) : WeierstrassCurve.Affine F := ⟨0, 0, 0, 0, b⟩

/-- Its points: the point at infinity, which is 0, and the solutions of the equation. -/
abbrev Pt (b : F) := (curve b).Point

/-- The affine coordinates stand for the point. -/
def AffIs {b : F} (p : Aff F) : Pt b → Prop
  | .zero => p = ⟨0, 0⟩
  | .some x y _ => p = ⟨x, y⟩

/-- The Jacobian coordinates stand for the point. -/
def JacIs {b : F} (p : Jac F) : Pt b → Prop
  | .zero => p.z = 0
  | .some x y _ => p.z ≠ 0 ∧ p.x = x * p.z ^ 2 ∧ p.y = y * p.z ^ 3

/-- What is needed of the field and the constant: the equation then has no singular solution and
(0, 0) is none. -/
structure Smooth (b : F) : Prop where
  two : (2 : F) ≠ 0
  three : (3 : F) ≠ 0
  b : b ≠ 0

end Verif.Spec
