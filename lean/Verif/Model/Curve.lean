import Mathlib.Algebra.Field.Defs
import Verif.Model.Bytes

/-!
Points of a curve `y² = x³ + b` as the code computes with them: the macro `new_curve_impl` of
`halo2curves/src/derive/curve.rs`.

The base field is any field with decidable equality. For bn256 it is the type of stored forms with the
operations of `Model/FieldArith` (`Spec/StoredField` makes it a field), or residues, which is the same
by C57. `square` is the product with itself and `invert().unwrap_or(zero())` is `⁻¹`, again by C57.
Constant-time selection is `if`.
-/

namespace Verif

/-- A point in Jacobian coordinates. Models halo2curves/src/derive/curve.rs lines 157-162. -/
structure Jac (F : Type) where
  x : F
  y : F
  z : F
  deriving DecidableEq

/-- A point in affine coordinates. Models halo2curves/src/derive/curve.rs lines 164-168. -/
structure Aff (F : Type) where
  x : F
  y : F
  deriving DecidableEq

variable {F : Type} [Field F] [DecidableEq F]

/-- `square` of a field element. -/
def sq (a : F) : F := a * a

namespace Jac

/-- `identity`. Models halo2curves/src/derive/curve.rs lines 454-460. -/
def identity : Jac F := ⟨0, 0, 0⟩

/-- `default()`. Models halo2curves/src/derive/curve.rs lines 267-271. -/
def default : Jac F := identity

/-- `is_identity`. Models halo2curves/src/derive/curve.rs lines 462-464. -/
def isIdentity (p : Jac F) : Bool := decide (p.z = 0)

/-- `ct_eq`, which is `==`. Models halo2curves/src/derive/curve.rs lines 273-295 and 306-310. -/
def ctEq (p q : Jac F) : Bool :=
  let z := sq q.z
  let x1 := p.x * z
  let z := z * q.z
  let y1 := p.y * z
  let z := sq p.z
  let x2 := q.x * z
  let z := z * p.z
  let y2 := q.y * z
  (p.isIdentity && q.isIdentity) || (!p.isIdentity && !q.isIdentity && decide (x1 = x2) && decide (y1 = y2))

/-- `is_on_curve`. Models halo2curves/src/derive/curve.rs lines 335-343. -/
def isOnCurve (b : F) (p : Jac F) : Bool :=
  let z2 := sq p.z
  let z4 := sq z2
  let z6 := z4 * z2
  decide (sq p.y - sq p.x * p.x = z6 * b) || decide (p.z = 0)

/-- `double`. Models halo2curves/src/derive/curve.rs lines 423-448. -/
def double (p : Jac F) : Jac F :=
  let a := sq p.x
  let b := sq p.y
  let c := sq b
  let d := p.x + b
  let d := sq d
  let d := d - a - c
  let d := d + d
  let e := a + a + a
  let f := sq e
  let z3 := p.z * p.y
  let z3 := z3 + z3
  let x3 := f - (d + d)
  let c := c + c
  let c := c + c
  let c := c + c
  let y3 := e * (d - x3) - c
  if p.isIdentity then identity else ⟨x3, y3, z3⟩

/-- `-p`. Models halo2curves/src/derive/curve.rs lines 778-788. -/
def neg (p : Jac F) : Jac F := ⟨p.x, -p.y, p.z⟩

/-- `p + q`. Models halo2curves/src/derive/curve.rs lines 810-852. -/
def add (p q : Jac F) : Jac F :=
  if p.isIdentity then q
  else if q.isIdentity then p
  else
    let z1z1 := sq p.z
    let z2z2 := sq q.z
    let u1 := p.x * z2z2
    let u2 := q.x * z1z1
    let s1 := p.y * z2z2 * q.z
    let s2 := q.y * z1z1 * p.z
    if u1 = u2 then
      if s1 = s2 then p.double else identity
    else
      let h := u2 - u1
      let i := sq (h + h)
      let j := h * i
      let r := s2 - s1
      let r := r + r
      let v := u1 * i
      let x3 := sq r - j - v - v
      let s1 := s1 * j
      let s1 := s1 + s1
      let y3 := r * (v - x3) - s1
      let z3 := sq (p.z + q.z) - z1z1 - z2z2
      let z3 := z3 * h
      ⟨x3, y3, z3⟩

/-- `p - q`. Models halo2curves/src/derive/curve.rs lines 896-902. -/
def sub (p q : Jac F) : Jac F := p.add q.neg

/-- `sum`. Models halo2curves/src/derive/curve.rs lines 798-808. -/
def sum (l : List (Jac F)) : Jac F := l.foldl add identity

end Jac

namespace Aff

/-- `identity`: the coordinates (0, 0). Models halo2curves/src/derive/curve.rs lines 697-702. -/
def identity : Aff F := ⟨0, 0⟩

/-- `default()`. Models halo2curves/src/derive/curve.rs lines 575-579. -/
def default : Aff F := identity

/-- `is_identity`. Models halo2curves/src/derive/curve.rs lines 704-706. -/
def isIdentity (p : Aff F) : Bool := decide (p.x = 0) && decide (p.y = 0)

/-- `to_curve`. Models halo2curves/src/derive/curve.rs lines 708-714. -/
def toCurve (p : Aff F) : Jac F := ⟨p.x, p.y, if p.isIdentity then 0 else 1⟩

/-- `is_on_curve`. Models halo2curves/src/derive/curve.rs lines 744-748. -/
def isOnCurve (b : F) (p : Aff F) : Bool := decide (sq p.y - sq p.x * p.x = b) || p.isIdentity

/-- `-p`. Models halo2curves/src/derive/curve.rs lines 938-947. -/
def neg (p : Aff F) : Aff F := ⟨p.x, -p.y⟩

/-- `ct_eq`. Models halo2curves/src/derive/curve.rs lines 581-588. -/
def ctEq (p q : Aff F) : Bool :=
  (p.isIdentity && q.isIdentity) || (!p.isIdentity && !q.isIdentity && decide (p.x = q.x) && decide (p.y = q.y))

/-- `p + q` of affine points. Models halo2curves/src/derive/curve.rs lines 965-1001. -/
def add (p q : Aff F) : Jac F :=
  if p.isIdentity then q.toCurve
  else if q.isIdentity then p.toCurve
  else if p.x = q.x then
    if p.y = q.y then p.toCurve.double else Jac.identity
  else
    let h := q.x - p.x
    let hh := sq h
    let i := hh + hh
    let i := i + i
    let j := h * i
    let r := q.y - p.y
    let r := r + r
    let v := p.x * i
    let x3 := sq r - j - v - v
    let j := p.y * j
    let j := j + j
    let y3 := r * (v - x3) - j
    let z3 := h + h
    ⟨x3, y3, z3⟩

/-- `p - q` of affine points. Models halo2curves/src/derive/curve.rs lines 1003-1009. -/
def sub (p q : Aff F) : Jac F := p.add q.neg

end Aff

namespace Jac

/-- `p + q` with `q` affine. Models halo2curves/src/derive/curve.rs lines 854-894. -/
def addMixed (p : Jac F) (q : Aff F) : Jac F :=
  if p.isIdentity then q.toCurve
  else if q.isIdentity then p
  else
    let z1z1 := sq p.z
    let u2 := q.x * z1z1
    let s2 := q.y * z1z1 * p.z
    if p.x = u2 then
      if p.y = s2 then p.double else identity
    else
      let h := u2 - p.x
      let hh := sq h
      let i := hh + hh
      let i := i + i
      let j := h * i
      let r := s2 - p.y
      let r := r + r
      let v := p.x * i
      let x3 := sq r - j - v - v
      let j := p.y * j
      let j := j + j
      let y3 := r * (v - x3) - j
      let z3 := sq (p.z + h) - z1z1 - hh
      ⟨x3, y3, z3⟩

/-- `p - q` with `q` affine. Models halo2curves/src/derive/curve.rs lines 904-910. -/
def subMixed (p : Jac F) (q : Aff F) : Jac F := p.addMixed q.neg

/-- `to_affine`. Models halo2curves/src/derive/curve.rs lines 400-414. -/
def toAffine (p : Jac F) : Aff F :=
  let zinv := p.z⁻¹
  let zinv2 := sq zinv
  let x := p.x * zinv2
  let zinv3 := zinv2 * zinv
  let y := p.y * zinv3
  if zinv = 0 then Aff.identity else ⟨x, y⟩

/-- The products of the z-coordinates before each point, and of all. Models
halo2curves/src/derive/curve.rs lines 366-374. -/
def prefixProducts : F → List (Jac F) → List F × F
  | acc, [] => ([], acc)
  | acc, p :: ps =>
    let rest := prefixProducts (if p.isIdentity then acc else acc * p.z) ps
    (acc :: rest.1, rest.2)

/-- The backward pass over points and prefix products, last point first. Models
halo2curves/src/derive/curve.rs lines 380-397. -/
def normalizeBack : F → List (Jac F × F) → List (Aff F)
  | _, [] => []
  | acc, (p, qx) :: ps =>
    let skip := p.isIdentity
    let tmp := qx * acc
    let acc := if skip then acc else acc * p.z
    let tmp2 := sq tmp
    let tmp3 := tmp2 * tmp
    (if skip then Aff.identity else ⟨p.x * tmp2, p.y * tmp3⟩) :: normalizeBack acc ps

/-- `batch_normalize`; the panic is the failing assertion on the lengths (`invert().unwrap()` is taken of
a product of nonzero elements). Models halo2curves/src/derive/curve.rs lines 363-398; `n` is the length
of the output slice. -/
def batchNormalize (ps : List (Jac F)) (n : Nat) : Except Panic (List (Aff F)) :=
  if ps.length ≠ n then .error .assert
  else
    let (qs, acc) := prefixProducts 1 ps
    if acc = 0 then .error .unwrap
    else .ok (normalizeBack acc⁻¹ (ps.zip qs).reverse).reverse

end Jac

/-- The bits of a scalar, most significant first: the bytes of the representative backwards, each from
the highest bit. Models halo2curves/src/derive/curve.rs lines 924-929. -/
def scalarBits (bytes : List UInt8) : List Bool :=
  bytes.reverse.flatMap fun byte => (List.range 8).reverse.map fun i => byte.toNat.testBit i

/-- `p * scalar`. Models halo2curves/src/derive/curve.rs lines 922-935; `bytes` is the representative of
the scalar. -/
def Jac.mul (p : Jac F) (bytes : List UInt8) : Jac F :=
  (scalarBits bytes).foldl
    (fun acc bit =>
      let acc := acc.double
      if bit then acc.add p else acc)
    Jac.identity

/-- `p * scalar` with `p` affine. Models halo2curves/src/derive/curve.rs lines 1023-1041. -/
def Aff.mul (p : Aff F) (bytes : List UInt8) : Jac F :=
  (scalarBits bytes).foldl
    (fun acc bit =>
      let acc := acc.double
      if bit then acc.addMixed p else acc)
    Jac.identity

end Verif
