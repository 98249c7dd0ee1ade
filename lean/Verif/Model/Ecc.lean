import Verif.Model.Gadget
import Mathlib.Algebra.Field.Basic

/-!
Points of a curve y² = x³ + b in circuits: `halo2_gadgets/src/ecc/chip/witness_point.rs`, `add_incomplete.rs`
and `add.rs`. The chips are for Pallas there, that is for the field of `pallasBase` and for b = 5.
Fractions whose division is put off (`Assigned<F>`) are divided at once; the inverse of zero is zero in both.
-/

namespace Verif.Gadget

open FloorPlanner (Call)

variable {F : Type}

/-- `EccPoint` and `NonIdentityEccPoint`: the cells of the two coordinates, (0, 0) for the identity. Models
ecc/chip.rs lines 37-47 and 90-100. -/
structure EccPoint (F : Type) where
  x : Assigned F
  y : Assigned F

/-- An affine point as `pallas::Affine` holds it: the identity (`none`) or the coordinates. -/
abbrev AffinePoint (F : Type) := Option (F × F)

/-- `witness_point::Config`. Models ecc/chip/witness_point.rs lines 20-28. -/
structure WitnessPoint where
  qPoint : Selector
  qPointNonId : Selector
  x : Nat
  y : Nat

namespace WitnessPoint

/-- The expression of the curve equation. Models ecc/chip/witness_point.rs lines 49-55. -/
def curveEqn (c : WitnessPoint) (b : F) : Expr F :=
  let x := Expr.advice c.x 0
  let y := Expr.advice c.y 0
  y.square - (x.square * x) - Expr.const b

/-- The gates. Models ecc/chip/witness_point.rs lines 48-86. The products with the selector are grouped
differently there, which changes no value. -/
def chip (c : WitnessPoint) (b : F) : Chip F where
  gates := [
    (c.qPoint, [Expr.advice c.x 0 * c.curveEqn b, Expr.advice c.y 0 * c.curveEqn b]),
    (c.qPointNonId, [c.curveEqn b])]

/-- `assign_xy`. Models ecc/chip/witness_point.rs lines 88-103. -/
def assignXY (c : WitnessPoint) (region : Nat) (value : Option (F × F)) (offset : Nat) : Calls F × EccPoint F :=
  let x := assignAdvice region c.x offset (value.map Prod.fst)
  let y := assignAdvice region c.y offset (value.map Prod.snd)
  (x.1 ++ y.1, ⟨x.2, y.2⟩)

/-- `point`, of a value that is unknown when keys are generated. Models ecc/chip/witness_point.rs lines
105-127. -/
def point [Zero F] (c : WitnessPoint) (region : Nat) (value : Option (AffinePoint F)) (offset : Nat) :
    Calls F × EccPoint F :=
  let r := c.assignXY region (value.map fun v => match v with
    | none => (0, 0)
    | some xy => xy) offset
  (.enable c.qPoint offset :: r.1, r.2)

/-- `point_non_id`. Models ecc/chip/witness_point.rs lines 129-149. -/
def pointNonId (c : WitnessPoint) (region : Nat) (value : Option (AffinePoint F)) (offset : Nat) :
    Except Stop (Calls F × EccPoint F) :=
  match value with
  | some none => .error .error
  | some (some xy) =>
    let r := c.assignXY region (some xy) offset
    .ok (.enable c.qPointNonId offset :: r.1, r.2)
  | none =>
    let r := c.assignXY region none offset
    .ok (.enable c.qPointNonId offset :: r.1, r.2)

end WitnessPoint

/-- `add_incomplete::Config`. Models ecc/chip/add_incomplete.rs lines 11-22. -/
structure AddIncomplete where
  qAddIncomplete : Selector
  xP : Nat
  yP : Nat
  xQR : Nat
  yQR : Nat

/-- The four coordinates, if all are known. Models the uses of `zip` in ecc/chip/add_incomplete.rs lines 95-97
and 116-119 and in ecc/chip/add.rs. -/
def zip4 (xp yp xq yq : Option F) : Option (F × F × F × F) :=
  match xp, yp, xq, yq with
  | some xp, some yp, some xq, some yq => some (xp, yp, xq, yq)
  | _, _, _, _ => none

namespace AddIncomplete

/-- The gate. Models ecc/chip/add_incomplete.rs lines 56-80. -/
def chip (c : AddIncomplete) : Chip F where
  gates :=
    let xp := Expr.advice c.xP 0
    let yp := Expr.advice c.yP 0
    let xq := Expr.advice c.xQR 0
    let yq := Expr.advice c.yQR 0
    let xr := Expr.advice c.xQR 1
    let yr := Expr.advice c.yQR 1
    [(c.qAddIncomplete, [
      (xr + xq + xp) * (xp - xq) * (xp - xq) - (yp - yq).square,
      (yr + yq) * (xp - xq) - (yp - yq) * (xq - xr)])]

/-- The sum as it is computed. Models ecc/chip/add_incomplete.rs lines 120-130. -/
def sum [Field F] (xp yp xq yq : F) : F × F :=
  let lambda := (yq - yp) * (xq - xp)⁻¹
  let xr := lambda ^ 2 - xp - xq
  (xr, lambda * (xp - xr) - yp)

/-- `assign_region`. Models ecc/chip/add_incomplete.rs lines 82-145. -/
def assign [Field F] [DecidableEq F] (c : AddIncomplete) (region : Nat) (p q : EccPoint F) (offset : Nat) :
    Except Stop (Calls F × EccPoint F) :=
  let known := zip4 p.x.value p.y.value q.x.value q.y.value
  if known.any fun (xp, yp, xq, yq) => (xp = 0 ∧ yp = 0) ∨ (xq = 0 ∧ yq = 0) ∨ xp = xq then
    .error .error
  else
    let r := known.map fun (xp, yp, xq, yq) => sum xp yp xq yq
    let xr := assignAdvice region c.xQR (offset + 1) (r.map Prod.fst)
    let yr := assignAdvice region c.yQR (offset + 1) (r.map Prod.snd)
    .ok (.enable c.qAddIncomplete offset ::
      ((copyAdvice region p.x c.xP offset).1 ++ (copyAdvice region p.y c.yP offset).1 ++
      (copyAdvice region q.x c.xQR offset).1 ++ (copyAdvice region q.y c.yQR offset).1 ++
      xr.1 ++ yr.1), ⟨xr.2, yr.2⟩)

end AddIncomplete

/-- `add::Config`. Models ecc/chip/add.rs lines 10-31. -/
structure AddComplete where
  qAdd : Selector
  lambda : Nat
  xP : Nat
  yP : Nat
  xQR : Nat
  yQR : Nat
  alpha : Nat
  beta : Nat
  gamma : Nat
  delta : Nat

namespace AddComplete

/-- The twelve constraints. Models ecc/chip/add.rs lines 90-206. -/
def polys [Ring F] (c : AddComplete) : List (Expr F) :=
  let xp := Expr.advice c.xP 0
  let yp := Expr.advice c.yP 0
  let xq := Expr.advice c.xQR 0
  let yq := Expr.advice c.yQR 0
  let xr := Expr.advice c.xQR 1
  let yr := Expr.advice c.yQR 1
  let lambda := Expr.advice c.lambda 0
  let alpha := Expr.advice c.alpha 0
  let beta := Expr.advice c.beta 0
  let gamma := Expr.advice c.gamma 0
  let delta := Expr.advice c.delta 0
  let ifAlpha := (xq - xp) * alpha
  let ifBeta := xp * beta
  let ifGamma := xq * gamma
  let ifDelta := (yq + yp) * delta
  let one := Expr.const 1
  let nonexcX := lambda.square - xp - xq - xr
  let nonexcY := lambda * (xp - xr) - yp - yr
  [ (xq - xp) * ((xq - xp) * lambda - (yq - yp)),
    (one - ifAlpha) * (Expr.const 2 * yp * lambda - Expr.const 3 * xp.square),
    xp * xq * (xq - xp) * nonexcX,
    xp * xq * (xq - xp) * nonexcY,
    xp * xq * (yq + yp) * nonexcX,
    xp * xq * (yq + yp) * nonexcY,
    (one - ifBeta) * (xr - xq),
    (one - ifBeta) * (yr - yq),
    (one - ifGamma) * (xr - xp),
    (one - ifGamma) * (yr - yp),
    (one - ifAlpha - ifDelta) * xr,
    (one - ifAlpha - ifDelta) * yr ]

/-- The gate. Models ecc/chip/add.rs lines 188-204. -/
def chip [Ring F] (c : AddComplete) : Chip F where
  gates := [(c.qAdd, c.polys)]

/-- λ as it is computed; `TWO_INV` is the inverse of 2. Models ecc/chip/add.rs lines 257-280. -/
def slope [Field F] [DecidableEq F] (xp yp xq yq : F) : F :=
  if xq ≠ xp then (yq - yp) * (xq - xp)⁻¹
  else if yp ≠ 0 then xp ^ 2 * 3 * (yp⁻¹ * 2⁻¹)
  else 0

/-- The sum as it is computed. Models ecc/chip/add.rs lines 284-308. -/
def sum [Field F] [DecidableEq F] (xp yp xq yq : F) : F × F :=
  if xp = 0 then (xq, yq)
  else if xq = 0 then (xp, yp)
  else if xq = xp ∧ yq = -yp then (0, 0)
  else
    let lambda := slope xp yp xq yq
    let xr := lambda ^ 2 - xp - xq
    (xr, lambda * (xp - xr) - yp)

/-- `assign_region`. Models ecc/chip/add.rs lines 208-339, without the check made in tests. -/
def assign [Field F] [DecidableEq F] (c : AddComplete) (region : Nat) (p q : EccPoint F) (offset : Nat) :
    Calls F × EccPoint F :=
  let known := zip4 p.x.value p.y.value q.x.value q.y.value
  let alpha := p.x.value.bind fun xp => q.x.value.map fun xq => (xq - xp)⁻¹
  let beta := p.x.value.map (·⁻¹)
  let gamma := q.x.value.map (·⁻¹)
  let delta := known.map fun (xp, yp, xq, yq) => if xq = xp then (yq + yp)⁻¹ else 0
  let lambda := known.map fun (xp, yp, xq, yq) => slope xp yp xq yq
  let r := known.map fun (xp, yp, xq, yq) => sum xp yp xq yq
  let xr := assignAdvice region c.xQR (offset + 1) (r.map Prod.fst)
  let yr := assignAdvice region c.yQR (offset + 1) (r.map Prod.snd)
  (.enable c.qAdd offset ::
    ((copyAdvice region p.x c.xP offset).1 ++ (copyAdvice region p.y c.yP offset).1 ++
    (copyAdvice region q.x c.xQR offset).1 ++ (copyAdvice region q.y c.yQR offset).1 ++
    [.advice c.alpha offset alpha, .advice c.beta offset beta, .advice c.gamma offset gamma,
      .advice c.delta offset delta, .advice c.lambda offset lambda] ++
    xr.1 ++ yr.1), ⟨xr.2, yr.2⟩)

end AddComplete

end Verif.Gadget
