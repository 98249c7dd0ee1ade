import Verif.Model.FieldArith
import Verif.Model.PointCodec

/-!
The fields of secp256k1, whose primes take all 256 bits: the parts of `halo2curves/src/derive/field.rs` marked `dense`
and `halo2curves/src/secp256k1/{fp,fq}.rs`; and the encoding of points in one byte more than the field has,
`halo2curves/src/derive/curve.rs` as used in `halo2curves/src/secp256k1/curve.rs`. The functions that do not depend
on the kind of field (`sub`, `neg`, the products before reduction) are those of `Verif.Model.FieldArith`.
-/

namespace Verif

/-- The constants of the base field. Models halo2curves/src/secp256k1/fp.rs lines 26-31 and 49-62. -/
def secpFpConsts : FieldConsts where
  modulus := ⟨0xfffffffefffffc2f, 0xffffffffffffffff, 0xffffffffffffffff, 0xffffffffffffffff⟩
  inv := 0xd838091dd2253531
  r := ⟨0x1000003d1, 0, 0, 0⟩
  r2 := ⟨0x000007a2000e90a1, 0x1, 0, 0⟩
  r3 := ⟨0x002bb1e33795f671, 0x100000b73, 0, 0⟩

/-- The constants of the scalar field. Models halo2curves/src/secp256k1/fq.rs lines 26-31 and 49-72. -/
def secpFqConsts : FieldConsts where
  modulus := ⟨0xbfd25e8cd0364141, 0xbaaedce6af48a03b, 0xfffffffffffffffe, 0xffffffffffffffff⟩
  inv := 0x4b0dff665588b13f
  r := ⟨0x402da1732fc9bebf, 0x4551231950b75fc4, 0x1, 0⟩
  r2 := ⟨0x896cf21467d7d140, 0x741496c20e7cf878, 0xe697f5e45bcd07c6, 0x9d671cd581c69bc5⟩
  r3 := ⟨0x7bc0cfe0e9ff41ed, 0x0017648444d4322c, 0xb1b31347f1d0b2da, 0x555d800c18ef116d⟩

namespace FieldConsts.Dense

variable (c : FieldConsts)

/-- The modulus is taken off the four limbs and the carry above them, and added back if that went below zero. Models
halo2curves/src/derive/field.rs lines 559-570 and 608-619, which are the same. -/
def finish (d : Limbs) (carry : Nat) : Limbs :=
  let s0 := sbb d.l0 c.modulus.l0 0
  let s1 := sbb d.l1 c.modulus.l1 s0.2
  let s2 := sbb d.l2 c.modulus.l2 s1.2
  let s3 := sbb d.l3 c.modulus.l3 s2.2
  let s4 := sbb carry 0 s3.2
  let d0 := adc s0.1 (c.modulus.l0 &&& s4.2) 0
  let d1 := adc s1.1 (c.modulus.l1 &&& s4.2) d0.2
  let d2 := adc s2.1 (c.modulus.l2 &&& s4.2) d1.2
  let d3 := adc s3.1 (c.modulus.l3 &&& s4.2) d2.2
  ⟨d0.1, d1.1, d2.1, d3.1⟩

/-- `add` (`dense`). Models halo2curves/src/derive/field.rs lines 551-570. -/
def add (a b : Limbs) : Limbs :=
  let d0 := adc a.l0 b.l0 0
  let d1 := adc a.l1 b.l1 d0.2
  let d2 := adc a.l2 b.l2 d1.2
  let d3 := adc a.l3 b.l3 d2.2
  finish c ⟨d0.1, d1.1, d2.1, d3.1⟩ d3.2

/-- `double`. Models halo2curves/src/derive/field.rs lines 387-389. -/
def double (a : Limbs) : Limbs := add c a a

/-- `montgomery_reduce` (`dense`). Models halo2curves/src/derive/field.rs lines 574-620. -/
def montgomeryReduce (t : Limbs8) : Limbs :=
  let m := c.modulus
  let k := t.l0 * c.inv % W64
  let a0 := mac t.l0 k m.l0 0
  let a1 := mac t.l1 k m.l1 a0.2
  let a2 := mac t.l2 k m.l2 a1.2
  let a3 := mac t.l3 k m.l3 a2.2
  let a4 := adc t.l4 0 a3.2
  let k := a1.1 * c.inv % W64
  let b1 := mac a1.1 k m.l0 0
  let b2 := mac a2.1 k m.l1 b1.2
  let b3 := mac a3.1 k m.l2 b2.2
  let b4 := mac a4.1 k m.l3 b3.2
  let b5 := adc t.l5 a4.2 b4.2
  let k := b2.1 * c.inv % W64
  let c2 := mac b2.1 k m.l0 0
  let c3 := mac b3.1 k m.l1 c2.2
  let c4 := mac b4.1 k m.l2 c3.2
  let c5 := mac b5.1 k m.l3 c4.2
  let c6 := adc t.l6 b5.2 c5.2
  let k := c3.1 * c.inv % W64
  let d3 := mac c3.1 k m.l0 0
  let d4 := mac c4.1 k m.l1 d3.2
  let d5 := mac c5.1 k m.l2 d4.2
  let d6 := mac c6.1 k m.l3 d5.2
  let d7 := adc t.l7 c6.2 d6.2
  finish c ⟨d4.1, d5.1, d6.1, d7.1⟩ d7.2

/-- `mul`. Models halo2curves/src/derive/field.rs lines 425-449. -/
def mul (x y : Limbs) : Limbs := montgomeryReduce c (mulWide x y)

/-- `square`. Models halo2curves/src/derive/field.rs lines 393-421. -/
def square (x : Limbs) : Limbs := montgomeryReduce c (squareWide x)

/-- `from_raw`. Models halo2curves/src/derive/field.rs lines 51 and 116-119. -/
def fromRaw (v : Limbs) : Limbs := mul c v c.r2

/-- `From<u64>`. Models halo2curves/src/derive/field.rs lines 190-194. -/
def fromU64 (v : Nat) : Limbs := mul c ⟨v, 0, 0, 0⟩ c.r2

/-- `From<bool>`. Models halo2curves/src/derive/field.rs lines 180-188. -/
def fromBool (b : Bool) : Limbs := if b then c.one else zero

/-- `from_u128`. Models halo2curves/src/derive/field.rs lines 301-303. -/
def fromU128 (v : Nat) : Limbs := fromRaw c ⟨v % W64, v / W64 % W64, 0, 0⟩

/-- `from_u512`. Models halo2curves/src/derive/field.rs lines 29-47. -/
def fromU512 (v : Limbs8) : Limbs :=
  add c (mul c ⟨v.l0, v.l1, v.l2, v.l3⟩ c.r2) (mul c ⟨v.l4, v.l5, v.l6, v.l7⟩ c.r3)

/-- The limbs in canonical form. The beginning of `to_repr` and `get_lower_128`, halo2curves/src/secp256k1/fp.rs line
215 (fq.rs line 240) and halo2curves/src/derive/field.rs lines 321-323. -/
def canonical (a : Limbs) : Limbs := montgomeryReduce c ⟨a.l0, a.l1, a.l2, a.l3, 0, 0, 0, 0⟩

/-- `get_lower_128`. Models halo2curves/src/derive/field.rs lines 320-326. -/
def getLower128 (a : Limbs) : Nat := (canonical c a).l0 ||| (canonical c a).l1 * 2 ^ 64

/-- `to_repr`: 32 bytes. Models halo2curves/src/secp256k1/fp.rs lines 212-224 and fq.rs lines 237-249. -/
def toRepr (a : Limbs) : List UInt8 :=
  let t := canonical c a
  leBytes 8 t.l0 ++ leBytes 8 t.l1 ++ leBytes 8 t.l2 ++ leBytes 8 t.l3

/-- `from_repr` of 32 bytes. Models halo2curves/src/secp256k1/fp.rs lines 186-210 and fq.rs lines 211-235. -/
def fromRepr (b : List UInt8) : Option Limbs :=
  let t := limbsOf b
  let s0 := sbb t.l0 c.modulus.l0 0
  let s1 := sbb t.l1 c.modulus.l1 s0.2
  let s2 := sbb t.l2 c.modulus.l2 s1.2
  let s3 := sbb t.l3 c.modulus.l3 s2.2
  if s3.2 % 256 % 2 = 1 then some (mul c t c.r2) else none

/-- `from_bytes_wide` of 64 bytes. Models halo2curves/src/derive/field.rs lines 307-318. -/
def fromBytesWide (b : List UInt8) : Limbs :=
  let lo := limbsOf b
  let hi := limbsOf (b.drop 32)
  fromU512 c ⟨lo.l0, lo.l1, lo.l2, lo.l3, hi.l0, hi.l1, hi.l2, hi.l3⟩

/-- `is_odd`. Models halo2curves/src/secp256k1/fp.rs lines 226-228 and fq.rs lines 251-253. -/
def isOdd (a : Limbs) : Bool := (((toRepr c a).headD 0) &&& 1) == 1

/-- `cmp`. Models halo2curves/src/derive/field.rs lines 206-217. -/
def cmp (a b : Limbs) : Ordering := compareBytes ((toRepr c a).zip (toRepr c b)).reverse

/-- The bits of the exponent, most significant first. -/
def expBits (e : Limbs) : List Bool := wordBits e.l3 ++ wordBits e.l2 ++ wordBits e.l1 ++ wordBits e.l0

/-- The loop of `pow`. -/
def powBits (a : Limbs) : List Bool → Limbs → Limbs
  | [], acc => acc
  | b :: bs, acc =>
    let acc := square c acc
    powBits a bs (if b then mul c acc a else acc)

/-- `pow` with an exponent of four limbs: square and multiply over all 256 bits, from the top. `pow` is a provided
method of the trait `FieldExt` of the crate pasta_curves, which is not part of the repository; used in
halo2curves/src/secp256k1/fp.rs lines 137-142. -/
def pow (a e : Limbs) : Limbs := powBits c a (expBits e) c.one

/-- The loop of `pow_vartime`: nothing is squared before the first bit that is set. Models
halo2curves/src/secp256k1/fp.rs lines 161-175 and fq.rs lines 186-200. -/
def powVarBits (a : Limbs) : List Bool → Bool → Limbs → Limbs
  | [], _, res => res
  | b :: bs, found, res =>
    let res := if found then square c res else res
    if b then powVarBits a bs true (mul c res a) else powVarBits a bs found res

/-- `pow_vartime` with an exponent of four limbs. Models halo2curves/src/secp256k1/fp.rs lines 160-176 and fq.rs
lines 185-201. -/
def powVartime (a e : Limbs) : Limbs := powVarBits c a (expBits e) false c.one

end FieldConsts.Dense

open FieldConsts.Dense in
/-- `invert` of the base field; `none` for zero. Models halo2curves/src/secp256k1/fp.rs lines 149-158. -/
def secpFpInvert (a : Limbs) : Option Limbs :=
  let t := powVartime secpFpConsts a ⟨0xfffffffefffffc2d, 0xffffffffffffffff, 0xffffffffffffffff, 0xffffffffffffffff⟩
  if a = FieldConsts.zero then none else some t

open FieldConsts.Dense in
/-- `invert` of the scalar field. Models halo2curves/src/secp256k1/fq.rs lines 174-183. -/
def secpFqInvert (a : Limbs) : Option Limbs :=
  let t := powVartime secpFqConsts a ⟨0xbfd25e8cd036413f, 0xbaaedce6af48a03b, 0xfffffffffffffffe, 0xffffffffffffffff⟩
  if a = FieldConsts.zero then none else some t

open FieldConsts.Dense in
/-- `sqrt` of the base field. Models halo2curves/src/secp256k1/fp.rs lines 136-145. -/
def secpFpSqrt (a : Limbs) : Option Limbs :=
  let t := pow secpFpConsts a ⟨0xffffffffbfffff0c, 0xffffffffffffffff, 0xffffffffffffffff, 0x3fffffffffffffff⟩
  if square secpFpConsts t = a then some t else none

/-- The constants of the scalar field that are given as numbers: the generator, the root of unity, its inverse, the
half, and `T_MINUS1_OVER2`. Models halo2curves/src/secp256k1/fq.rs lines 76, 82-87, 90-95, 98-103 and 265-270. -/
def secpFqGenerator : Limbs := ⟨7, 0, 0, 0⟩
@[inherit_doc secpFqGenerator]
def secpFqRoot : Limbs := ⟨0x992f4b5402b052f2, 0x98bdeab680756045, 0xdf9879a3fbc483a8, 0xc1dc060e7a91986⟩
@[inherit_doc secpFqGenerator]
def secpFqRootInv : Limbs := ⟨0xb6fb30a0884f0d1c, 0x77a275910aa413c3, 0xefc7b0c75b8cbb72, 0xfd3ae181f12d7096⟩
@[inherit_doc secpFqGenerator]
def secpFqTwoInv : Limbs := ⟨0xdfe92f46681b20a1, 0x5d576e7357a4501d, 0xffffffffffffffff, 0x7fffffffffffffff⟩
@[inherit_doc secpFqGenerator]
def secpFqExp : Limbs := ⟨0x777fa4bd19a06c82, 0xfd755db9cd5e9140, 0xffffffffffffffff, 0x01ffffffffffffff⟩

/-- `S` of the scalar field. Models halo2curves/src/secp256k1/fq.rs line 209. -/
def secpFqS : Nat := 6

/-- `TWO_INV` of the base field. Models halo2curves/src/secp256k1/fp.rs lines 65-70. -/
def secpFpTwoInv : Limbs := ⟨0xffffffff7ffffe18, 0xffffffffffffffff, 0xffffffffffffffff, 0x7fffffffffffffff⟩

/-- The generator of the curve. Models halo2curves/src/secp256k1/curve.rs lines 39-50. -/
def secpGenX : Limbs := ⟨0x59F2815B16F81798, 0x029BFCDB2DCE28D9, 0x55A06295CE870B07, 0x79BE667EF9DCBBAC⟩
@[inherit_doc secpGenX]
def secpGenY : Limbs := ⟨0x9C47D08FFB10D4B8, 0xFD17B448A6855419, 0x5DA4FBFC0E1108A8, 0x483ADA7726A3C465⟩

section

variable {F : Type} [Field F] [DecidableEq F]

/-- `from_bytes` of a point whose encoding has `csize` bytes, of which the first `io.size` are x. Models
halo2curves/src/derive/curve.rs lines 604-630 with `$compressed_size` as large as or larger than `$base::size()`; in
halo2curves/src/secp256k1/curve.rs lines 59-70 they are 33 and 32. -/
def Aff.fromBytesWide (io : FieldIO F) (csize : Nat) (b : F) (bytes : List UInt8) : Option (Aff F) := do
  let last := bytes.getD (csize - 1) 0
  let ysign := last.toNat.testBit 7
  let tmp := bytes.set (csize - 1) (last &&& 0x7f)
  let x ← io.fromBytes (tmp.take io.size)
  if x = 0 ∧ ysign = false then return Aff.identity
  else
    let x3 := sq x * x
    let y ← io.sqrt (x3 + b)
    return ⟨x, if ysign != io.sign y then -y else y⟩

/-- `to_bytes` of a point into `csize` bytes. Models halo2curves/src/derive/curve.rs lines 636-647. -/
def Aff.toBytesWide (io : FieldIO F) (csize : Nat) (p : Aff F) : List UInt8 :=
  if p.isIdentity then List.replicate csize 0
  else
    let sign : UInt8 := if io.sign p.y then 0x80 else 0
    let xbytes := io.toBytes p.x ++ List.replicate (csize - io.size) 0
    xbytes.set (csize - 1) (xbytes.getD (csize - 1) 0 ||| sign)

end

end Verif
