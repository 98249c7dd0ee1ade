import Verif.Model.Ecc
import Verif.Spec.Gadget
import Verif.Spec.CurveGroup

/-!
Points of a curve in cells.
-/

namespace Verif.Spec.Ecc

open Verif.Gadget Verif.Spec.Gadget

variable {F : Type} [Field F]

/-- A curve y² = x³ + b, smooth and without points that have a coordinate zero. -/
structure Usable (b : F) : Prop where
  smooth : Smooth b
  x : ∀ y : F, y ^ 2 ≠ b
  y : ∀ x : F, x ^ 3 + b ≠ 0

/-- The coordinates of a point, (0, 0) for the identity. -/
def coords {b : F} : Pt b → F × F
  | .zero => (0, 0)
  | .some x y _ => (x, y)

/-- The cells contain the point. -/
def Holds {b : F} (w : Content F) (p : EccPoint F) (P : Pt b) : Prop :=
  (w.at p.x.cell, w.at p.y.cell) = coords P

/-- The cells contain what they are said to have been assigned. -/
def KnownPoint (w : Content F) (p : EccPoint F) : Prop := Known w p.x ∧ Known w p.y

/-- The two points are in the same cells. -/
def SameCells (p p' : EccPoint F) : Prop := p.x.cell = p'.x.cell ∧ p.y.cell = p'.y.cell

/-- The coordinates are all known, and one point is the identity or the first coordinates are the same. -/
def Exceptional (p q : EccPoint F) : Prop := ∃ xp yp xq yq, p.x.value = some xp ∧ p.y.value = some yp ∧
  q.x.value = some xq ∧ q.y.value = some yq ∧ ((xp = 0 ∧ yp = 0) ∨ (xq = 0 ∧ yq = 0) ∨ xp = xq)

/-- The point, as `pallas::Affine` holds it. -/
def affine {b : F} : Pt b → AffinePoint F
  | .zero => none
  | .some x y _ => some (x, y)

end Verif.Spec.Ecc
