import Verif.Model.Curve

/-!
The compressed encoding of points: `GroupEncoding` in the macro `new_curve_impl` of
`halo2curves/src/derive/curve.rs`, and the reading and writing of base field elements it uses.
-/

namespace Verif

/-- What the encoding uses of the base field, apart from arithmetic: canonical bytes, of a fixed number,
and square roots. For Fq these are `from_bytes`, `to_bytes` and `sqrt` of halo2curves/src/bn256/fq.rs
lines 170-179 and 203-242. -/
structure FieldIO (F : Type) where
  size : Nat
  fromBytes : List UInt8 → Option F
  toBytes : F → List UInt8
  sqrt : F → Option F

variable {F : Type} [Field F] [DecidableEq F]

/-- `y.to_bytes()[0] & 1`. Models halo2curves/src/derive/curve.rs lines 617 and 641. -/
def FieldIO.sign (io : FieldIO F) (y : F) : Bool := ((io.toBytes y).getD 0 0).toNat.testBit 0

/-- `from_bytes`: the top bit of the last byte is the parity of y, the rest is x; all zeros is the point
at infinity. Models halo2curves/src/derive/curve.rs lines 604-630; the closures that the code runs also
after a failure have no effect then. The last byte is read with a default that is never used: the code
has an array of `size` bytes. -/
def Aff.fromBytes (io : FieldIO F) (b : F) (bytes : List UInt8) : Option (Aff F) := do
  let last := bytes.getLastD 0
  let ysign := last.toNat.testBit 7
  let tmp := bytes.dropLast ++ [last &&& 0x7f]
  let x ← io.fromBytes tmp
  if x = 0 ∧ ysign = false then return Aff.identity
  else
    let x3 := sq x * x
    let y ← io.sqrt (x3 + b)
    return ⟨x, if ysign != io.sign y then -y else y⟩

/-- `to_bytes`. Models halo2curves/src/derive/curve.rs lines 636-647. -/
def Aff.toBytes (io : FieldIO F) (p : Aff F) : List UInt8 :=
  if p.isIdentity then List.replicate io.size 0
  else
    let sign : UInt8 := if io.sign p.y then 0x80 else 0
    let xbytes := io.toBytes p.x
    xbytes.dropLast ++ [xbytes.getLastD 0 ||| sign]

/-- `coordinates`, and their bytes; `none` if the point is not on the curve. The point at infinity has
the coordinates (0, 0), which pass the check. Models halo2curves/src/derive/curve.rs lines 744-759;
`Coordinates::from_xy` of the crate pasta_curves, which is not part of the repository, calls `from_xy`. -/
def Aff.coordinates (io : FieldIO F) (b : F) (p : Aff F) : Option (List UInt8 × List UInt8) :=
  if p.isOnCurve b then some (io.toBytes p.x, io.toBytes p.y) else none

end Verif
