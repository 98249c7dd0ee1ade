import Verif.Model.VerifyingKey

/-!
The arithmetic of the fields `Fq` and `Fr` on limbs: `halo2curves/src/arithmetic.rs`,
`halo2curves/src/derive/field.rs` (the feature `asm` is off: no Cargo.toml of the project sets it) and
`halo2curves/src/bn256/{fq,fr}.rs`. Machine words are naturals; every truncation is explicit.
-/

namespace Verif

/-- `adc`: `a + b + carry`, the low word and the carry. Models halo2curves/src/arithmetic.rs lines
73-76; the sum of three words fits a `u128`. -/
def adc (a b carry : Nat) : Nat × Nat := ((a + b + carry) % W64, (a + b + carry) / W64)

/-- `mac`: `a + b * c + carry`, the low word and the carry. Models halo2curves/src/arithmetic.rs lines
87-90; the result fits a `u128`. -/
def mac (a b c carry : Nat) : Nat × Nat := ((a + b * c + carry) % W64, (a + b * c + carry) / W64)

/-- The constants a field is set up with: the modulus, `-1/modulus` modulo `2^64`, and `2^256`, `2^512`,
`2^768` modulo the modulus. The arguments of the macros `field_common` and `field_arithmetic`,
halo2curves/src/derive/field.rs lines 3-15 and 382. -/
structure FieldConsts where
  modulus : Limbs
  inv : Nat
  r : Limbs
  r2 : Limbs
  r3 : Limbs

/-- The constants of `Fq`. Models halo2curves/src/bn256/fq.rs lines 30-62. -/
def fqConsts : FieldConsts where
  modulus := fqModulus
  inv := 0x87d20782e4866389
  r := ⟨0xd35d438dc58f0d9d, 0x0a78eb28f5c70b3d, 0x666ea36f7879462c, 0x0e0a77c19a07df2f⟩
  r2 := ⟨0xf32cfc5b538afa89, 0xb5e71911d44501fb, 0x47ab1eff0a417ff6, 0x06d89f71cab8351f⟩
  r3 := ⟨0xb1cd6dafda1530df, 0x62f210e6a7283db6, 0xef7f0b0c0ada0afb, 0x20fd6e902d592544⟩

/-- The constants of `Fr`. Models halo2curves/src/bn256/fr.rs lines 28-65. -/
def frConsts : FieldConsts where
  modulus := frModulus
  inv := 0xc2e1f593efffffff
  r := ⟨0xac96341c4ffffffb, 0x36fc76959f60cd29, 0x666ea36f7879462e, 0x0e0a77c19a07df2f⟩
  r2 := ⟨0x1bb8e645ae216da7, 0x53fe3ab1e35c59e3, 0x8c49833d53bb8085, 0x0216d0b17f4e44a5⟩
  r3 := ⟨0x5e94d8e1b4bf0040, 0x2a489cbe1cfbb6b8, 0x893cc664a19fcfed, 0x0cf8594b7fcc657c⟩

/-- Eight limbs, least significant first: `[u64; 8]`. -/
structure Limbs8 where
  l0 : Nat
  l1 : Nat
  l2 : Nat
  l3 : Nat
  l4 : Nat
  l5 : Nat
  l6 : Nat
  l7 : Nat
  deriving DecidableEq, Repr

namespace FieldConsts

variable (c : FieldConsts)

/-- `zero`. Models halo2curves/src/derive/field.rs lines 19-21. -/
def zero : Limbs := ⟨0, 0, 0, 0⟩

/-- `one`. Models halo2curves/src/derive/field.rs lines 25-27. -/
def one : Limbs := c.r

/-- `sub`. Models halo2curves/src/derive/field.rs lines 453-467. -/
def sub (a b : Limbs) : Limbs :=
  let s0 := sbb a.l0 b.l0 0
  let s1 := sbb a.l1 b.l1 s0.2
  let s2 := sbb a.l2 b.l2 s1.2
  let s3 := sbb a.l3 b.l3 s2.2
  let d0 := adc s0.1 (c.modulus.l0 &&& s3.2) 0
  let d1 := adc s1.1 (c.modulus.l1 &&& s3.2) d0.2
  let d2 := adc s2.1 (c.modulus.l2 &&& s3.2) d1.2
  let d3 := adc s3.1 (c.modulus.l3 &&& s3.2) d2.2
  ⟨d0.1, d1.1, d2.1, d3.1⟩

/-- `add` (`sparse`). Models halo2curves/src/derive/field.rs lines 497-506. -/
def add (a b : Limbs) : Limbs :=
  let d0 := adc a.l0 b.l0 0
  let d1 := adc a.l1 b.l1 d0.2
  let d2 := adc a.l2 b.l2 d1.2
  let d3 := adc a.l3 b.l3 d2.2
  c.sub ⟨d0.1, d1.1, d2.1, d3.1⟩ c.modulus

/-- `double`. Models halo2curves/src/derive/field.rs lines 387-389. -/
def double (a : Limbs) : Limbs := c.add a a

/-- `neg`. Models halo2curves/src/derive/field.rs lines 471-486. -/
def neg (a : Limbs) : Limbs :=
  let s0 := sbb c.modulus.l0 a.l0 0
  let s1 := sbb c.modulus.l1 a.l1 s0.2
  let s2 := sbb c.modulus.l2 a.l2 s1.2
  let s3 := sbb c.modulus.l3 a.l3 s2.2
  let mask := ((if a.l0 ||| a.l1 ||| a.l2 ||| a.l3 = 0 then 1 else 0) + W64 - 1) % W64
  ⟨s0.1 &&& mask, s1.1 &&& mask, s2.1 &&& mask, s3.1 &&& mask⟩

/-- `montgomery_reduce` (`sparse`). Models halo2curves/src/derive/field.rs lines 509-544. -/
def montgomeryReduce (t : Limbs8) : Limbs :=
  let m := c.modulus
  let k := t.l0 * c.inv % W64
  let a0 := mac t.l0 k m.l0 0
  let a1 := mac t.l1 k m.l1 a0.2
  let a2 := mac t.l2 k m.l2 a1.2
  let a3 := mac t.l3 k m.l3 a2.2
  let a4 := adc t.l4 0 a3.2
  let k := a1.1 * c.inv % W64
  let b1 := mac a1.1 k m.l0 0
  let b2 := mac a2.1 k m.l1 b1.2
  let b3 := mac a3.1 k m.l2 b2.2
  let b4 := mac a4.1 k m.l3 b3.2
  let b5 := adc t.l5 a4.2 b4.2
  let k := b2.1 * c.inv % W64
  let c2 := mac b2.1 k m.l0 0
  let c3 := mac b3.1 k m.l1 c2.2
  let c4 := mac b4.1 k m.l2 c3.2
  let c5 := mac b5.1 k m.l3 c4.2
  let c6 := adc t.l6 b5.2 c5.2
  let k := c3.1 * c.inv % W64
  let d3 := mac c3.1 k m.l0 0
  let d4 := mac c4.1 k m.l1 d3.2
  let d5 := mac c5.1 k m.l2 d4.2
  let d6 := mac c6.1 k m.l3 d5.2
  let d7 := adc t.l7 c6.2 d6.2
  c.sub ⟨d4.1, d5.1, d6.1, d7.1⟩ c.modulus

/-- The product before reduction. Models halo2curves/src/derive/field.rs lines 428-446. -/
def mulWide (x y : Limbs) : Limbs8 :=
  let a0 := mac 0 x.l0 y.l0 0
  let a1 := mac 0 x.l0 y.l1 a0.2
  let a2 := mac 0 x.l0 y.l2 a1.2
  let a3 := mac 0 x.l0 y.l3 a2.2
  let b1 := mac a1.1 x.l1 y.l0 0
  let b2 := mac a2.1 x.l1 y.l1 b1.2
  let b3 := mac a3.1 x.l1 y.l2 b2.2
  let b4 := mac a3.2 x.l1 y.l3 b3.2
  let c2 := mac b2.1 x.l2 y.l0 0
  let c3 := mac b3.1 x.l2 y.l1 c2.2
  let c4 := mac b4.1 x.l2 y.l2 c3.2
  let c5 := mac b4.2 x.l2 y.l3 c4.2
  let d3 := mac c3.1 x.l3 y.l0 0
  let d4 := mac c4.1 x.l3 y.l1 d3.2
  let d5 := mac c5.1 x.l3 y.l2 d4.2
  let d6 := mac c5.2 x.l3 y.l3 d5.2
  ⟨a0.1, b1.1, c2.1, d3.1, d4.1, d5.1, d6.1, d6.2⟩

/-- `mul`. Models halo2curves/src/derive/field.rs lines 425-449. -/
def mul (x y : Limbs) : Limbs := c.montgomeryReduce (mulWide x y)

/-- `x << 1` on a word. -/
def shl1 (x : Nat) : Nat := 2 * x % W64

/-- The square before reduction. Models halo2curves/src/derive/field.rs lines 394-418. -/
def squareWide (x : Limbs) : Limbs8 :=
  let a1 := mac 0 x.l0 x.l1 0
  let a2 := mac 0 x.l0 x.l2 a1.2
  let a3 := mac 0 x.l0 x.l3 a2.2
  let b3 := mac a3.1 x.l1 x.l2 0
  let b4 := mac a3.2 x.l1 x.l3 b3.2
  let c5 := mac b4.2 x.l2 x.l3 0
  let r7 := c5.2 / 2 ^ 63
  let r6 := shl1 c5.2 ||| c5.1 / 2 ^ 63
  let r5 := shl1 c5.1 ||| b4.1 / 2 ^ 63
  let r4 := shl1 b4.1 ||| b3.1 / 2 ^ 63
  let r3 := shl1 b3.1 ||| a2.1 / 2 ^ 63
  let r2 := shl1 a2.1 ||| a1.1 / 2 ^ 63
  let r1 := shl1 a1.1
  let d0 := mac 0 x.l0 x.l0 0
  let d1 := adc 0 r1 d0.2
  let d2 := mac r2 x.l1 x.l1 d1.2
  let d3 := adc 0 r3 d2.2
  let d4 := mac r4 x.l2 x.l2 d3.2
  let d5 := adc 0 r5 d4.2
  let d6 := mac r6 x.l3 x.l3 d5.2
  let d7 := adc 0 r7 d6.2
  ⟨d0.1, d1.1, d2.1, d3.1, d4.1, d5.1, d6.1, d7.1⟩

/-- `square`. Models halo2curves/src/derive/field.rs lines 393-421. -/
def square (x : Limbs) : Limbs := c.montgomeryReduce (squareWide x)

/-- `from_raw`. Models halo2curves/src/derive/field.rs lines 51 and 116-119. -/
def fromRaw (v : Limbs) : Limbs := c.mul v c.r2

/-- `From<u64>`. Models halo2curves/src/derive/field.rs lines 190-194. -/
def fromU64 (v : Nat) : Limbs := c.mul ⟨v, 0, 0, 0⟩ c.r2

/-- `From<bool>`. Models halo2curves/src/derive/field.rs lines 180-188. -/
def fromBool (b : Bool) : Limbs := if b then c.one else zero

/-- `from_u128`. Models halo2curves/src/derive/field.rs lines 301-303. -/
def fromU128 (v : Nat) : Limbs := c.fromRaw ⟨v % W64, v / W64 % W64, 0, 0⟩

/-- `from_u512`. Models halo2curves/src/derive/field.rs lines 29-47. -/
def fromU512 (v : Limbs8) : Limbs :=
  c.add (c.mul ⟨v.l0, v.l1, v.l2, v.l3⟩ c.r2) (c.mul ⟨v.l4, v.l5, v.l6, v.l7⟩ c.r3)

/-- The limbs in canonical form: `montgomery_reduce` of the limbs with zeros above. The beginning of
`to_repr` and `get_lower_128`, halo2curves/src/bn256/fq.rs lines 232-233 (fr.rs line 230) and
halo2curves/src/derive/field.rs lines 321-323. -/
def canonical (a : Limbs) : Limbs := c.montgomeryReduce ⟨a.l0, a.l1, a.l2, a.l3, 0, 0, 0, 0⟩

/-- `get_lower_128`. Models halo2curves/src/derive/field.rs lines 320-326. -/
def getLower128 (a : Limbs) : Nat := (c.canonical a).l0 ||| (c.canonical a).l1 * 2 ^ 64

/-- `to_repr`: 32 bytes. Models halo2curves/src/bn256/fq.rs lines 229-242 and fr.rs lines 227-239. -/
def toRepr (a : Limbs) : List UInt8 :=
  let t := c.canonical a
  leBytes 8 t.l0 ++ leBytes 8 t.l1 ++ leBytes 8 t.l2 ++ leBytes 8 t.l3

/-- The limbs of 32 bytes. Models halo2curves/src/bn256/fq.rs lines 206-209 and fr.rs lines 204-207. -/
def limbsOf (b : List UInt8) : Limbs :=
  ⟨leNat (b.take 8), leNat ((b.drop 8).take 8), leNat ((b.drop 16).take 8), leNat ((b.drop 24).take 8)⟩

/-- `from_repr` of 32 bytes. Models halo2curves/src/bn256/fq.rs lines 203-227 and fr.rs lines 201-225. -/
def fromRepr (b : List UInt8) : Option Limbs :=
  let t := limbsOf b
  let s0 := sbb t.l0 c.modulus.l0 0
  let s1 := sbb t.l1 c.modulus.l1 s0.2
  let s2 := sbb t.l2 c.modulus.l2 s1.2
  let s3 := sbb t.l3 c.modulus.l3 s2.2
  if s3.2 % 256 % 2 = 1 then some (c.mul t c.r2) else none

/-- `from_bytes_wide` of 64 bytes. Models halo2curves/src/derive/field.rs lines 307-318. -/
def fromBytesWide (b : List UInt8) : Limbs :=
  let lo := limbsOf b
  let hi := limbsOf (b.drop 32)
  c.fromU512 ⟨lo.l0, lo.l1, lo.l2, lo.l3, hi.l0, hi.l1, hi.l2, hi.l3⟩

/-- `is_odd`. Models halo2curves/src/bn256/fq.rs lines 244-246 and fr.rs lines 241-243. -/
def isOdd (a : Limbs) : Bool := (((c.toRepr a).headD 0) &&& 1) == 1

/-- The first difference of the byte strings, from the end, decides. Models
halo2curves/src/derive/field.rs lines 209-216. -/
def compareBytes : List (UInt8 × UInt8) → Ordering
  | [] => .eq
  | (a, b) :: rest =>
    match compare a b with
    | .eq => compareBytes rest
    | o => o

/-- `cmp`. Models halo2curves/src/derive/field.rs lines 206-217. -/
def cmp (a b : Limbs) : Ordering := compareBytes ((c.toRepr a).zip (c.toRepr b)).reverse

/-- The loop of `pow`: bits of the exponent, most significant first. -/
def powBits (a : Limbs) : List Bool → Limbs → Limbs
  | [], acc => acc
  | b :: bs, acc =>
    let acc := c.square acc
    powBits a bs (if b then c.mul acc a else acc)

/-- The bits of a word, most significant first. -/
def wordBits (w : Nat) : List Bool := ((List.range 64).map fun i => w.testBit i).reverse

/-- `pow` with an exponent of four limbs: square and multiply over all 256 bits, from the top. `pow` is a
provided method of the trait `FieldExt` of the crate pasta_curves, which is not part of the repository;
used in halo2curves/src/bn256/fq.rs lines 133, 171 and 184, fr.rs line 183. -/
def pow (a e : Limbs) : Limbs :=
  c.powBits a (wordBits e.l3 ++ wordBits e.l2 ++ wordBits e.l1 ++ wordBits e.l0) c.one

end FieldConsts

/-- `invert` of `Fq`; `none` for zero. Models halo2curves/src/bn256/fq.rs lines 183-192. -/
def fqInvert (a : Limbs) : Option Limbs :=
  let t := fqConsts.pow a ⟨0x3c208c16d87cfd45, 0x97816a916871ca8d, 0xb85045b68181585d, 0x30644e72e131a029⟩
  if a = FieldConsts.zero then none else some t

/-- `invert` of `Fr`. Models halo2curves/src/bn256/fr.rs lines 182-191. -/
def frInvert (a : Limbs) : Option Limbs :=
  let t := frConsts.pow a ⟨0x43e1f593efffffff, 0x2833e84879b97091, 0xb85045b68181585d, 0x30644e72e131a029⟩
  if a = FieldConsts.zero then none else some t

/-- `sqrt` of `Fq`. Models halo2curves/src/bn256/fq.rs lines 170-179. -/
def fqSqrt (a : Limbs) : Option Limbs :=
  let t := fqConsts.pow a ⟨0x4f082305b61f3f52, 0x65e05aa45a1c72a3, 0x6e14116da0605617, 0x0c19139cb84c680a⟩
  if fqConsts.square t = a then some t else none

/-- `legendre` of `Fq`: 0, 1 or -1. Models halo2curves/src/bn256/fq.rs lines 124-141. -/
def fqLegendre (a : Limbs) : Int :=
  let s := fqConsts.pow a ⟨0x9e10460b6c3e7ea3, 0xcbc0b548b438e546, 0xdc2822db40c0ac2e, 0x183227397098d014⟩
  if s = FieldConsts.zero then 0 else if s = fqConsts.one then 1 else -1

end Verif
