import Verif.Model.Compile
import Verif.Model.PointCodec
import Verif.Model.Roots

/-!
The compressed encoding of the points of G2: `from_bytes` and `to_bytes` of `halo2curves/src/bn256/fq2.rs`, used by the
macro of `halo2curves/src/derive/curve.rs`.
-/

namespace Verif

open Tower

variable {F : Type} [Field F] [DecidableEq F]

/-- `from_bytes` of the quadratic extension: both coordinates are unwrapped before the result says whether they were
there. Models halo2curves/src/bn256/fq2.rs lines 133-145. -/
def fq2FromBytes (io : FieldIO F) (bytes : List UInt8) : Except Panic (Fq2 F) :=
  match io.fromBytes (bytes.take 32), io.fromBytes (bytes.drop 32) with
  | some c0, some c1 => .ok ⟨c0, c1⟩
  | _, _ => .error .unwrap

/-- `to_bytes` of the quadratic extension. Models halo2curves/src/bn256/fq2.rs lines 147-154. -/
def fq2ToBytes (io : FieldIO F) (a : Fq2 F) : List UInt8 := io.toBytes a.c0 ++ io.toBytes a.c1

/-- What the encoding of points uses of the quadratic extension: 64 bytes, read and written as above, and its square
roots. Where reading panics there is nothing here; the panic is in `g2FromBytes`. -/
def fq2IO (dec : Limbs → F) (io : FieldIO F) : FieldIO (Fq2 F) where
  size := 64
  fromBytes bytes := (fq2FromBytes io bytes).toOption
  toBytes := fq2ToBytes io
  sqrt := Fq2.sqrt dec

/-- `G2Affine::from_bytes`, and `G2Affine::from_bytes_unchecked`, which calls it. Models
halo2curves/src/derive/curve.rs lines 604-634 for a field whose `from_bytes` panics; what follows the reading of x is
`Aff.fromBytes`. -/
def g2FromBytes [Field (Fq2 F)] (dec : Limbs → F) (io : FieldIO F) (b : Fq2 F) (bytes : List UInt8) :
    Except Panic (Option (Aff (Fq2 F))) := do
  let tmp := bytes.dropLast ++ [bytes.getLastD 0 &&& 0x7f]
  let _ ← fq2FromBytes io tmp
  return Aff.fromBytes (fq2IO dec io) b bytes

/-- `G2Affine::to_bytes`. Models halo2curves/src/derive/curve.rs lines 636-647. -/
def g2ToBytes [Field (Fq2 F)] (dec : Limbs → F) (io : FieldIO F) (p : Aff (Fq2 F)) : List UInt8 := p.toBytes (fq2IO dec io)

end Verif
