import Verif.Model.Bytes

/-!
Field elements as the code stores them: four 64-bit limbs, least significant first, in Montgomery
form. `halo2curves/src/arithmetic.rs`, `halo2curves/src/derive/field.rs`,
`halo2curves/src/bn256/{fq,fr,fq2}.rs`. Machine words are naturals; every truncation is explicit.
-/

namespace Verif

/-- Size of a limb, `2^64`. -/
abbrev W64 : Nat := 2 ^ 64

/-- `sbb`: `a - (b + borrow)` with the new borrow. Models halo2curves/src/arithmetic.rs lines 80-83
(`wrapping_sub` on `u128`, then the low and the high word). -/
def sbb (a b borrow : Nat) : Nat × Nat :=
  let ret := (a + 2 ^ 128 - (b + borrow / 2 ^ 63)) % 2 ^ 128
  (ret % W64, ret / W64)

/-- Four limbs, least significant first. Models the tuple struct `Fq([u64; 4])` of
halo2curves/src/bn256/fq.rs line 26 and `Fr([u64; 4])` of fr.rs line 24. -/
structure Limbs where
  l0 : Nat
  l1 : Nat
  l2 : Nat
  l3 : Nat
  deriving DecidableEq, Repr

/-- The limbs fit their machine words (holds of every Rust value). -/
def Limbs.Ok (a : Limbs) : Prop := a.l0 < W64 ∧ a.l1 < W64 ∧ a.l2 < W64 ∧ a.l3 < W64

/-- The number the limbs stand for. -/
def Limbs.val (a : Limbs) : Nat := a.l0 + W64 * (a.l1 + W64 * (a.l2 + W64 * a.l3))

/-- `is_less_than`. Models halo2curves/src/derive/field.rs lines 136-142. -/
def Limbs.isLessThan (x y : Limbs) : Bool :=
  let b := (sbb x.l0 y.l0 0).2
  let b := (sbb x.l1 y.l1 b).2
  let b := (sbb x.l2 y.l2 b).2
  let b := (sbb x.l3 y.l3 b).2
  b / 2 ^ 63 == 1

/-- Modulus of the base field. Models halo2curves/src/bn256/fq.rs lines 30-35. -/
def fqModulus : Limbs :=
  ⟨0x3c208c16d87cfd47, 0x97816a916871ca8d, 0xb85045b68181585d, 0x30644e72e131a029⟩

/-- Modulus of the scalar field. Models halo2curves/src/bn256/fr.rs lines 28-33. -/
def frModulus : Limbs :=
  ⟨0x43e1f593f0000001, 0x2833e84879b97091, 0xb85045b68181585d, 0x30644e72e131a029⟩

/-- One limb from the reader. Models halo2curves/src/derive/field.rs lines 361-363. -/
def readLimb (r : List UInt8) : Option (Nat × List UInt8) := do
  let (b, r) ← readExact 8 r
  some (leNat b, r)

/-- Four limbs from the reader, rejected unless they pass `lt`.
Models halo2curves/src/derive/field.rs lines 358-369. -/
def readRawIf (lt : Limbs → Bool) (r : List UInt8) : Option (Limbs × List UInt8) := do
  let (a, r) ← readLimb r
  let (b, r) ← readLimb r
  let (c, r) ← readLimb r
  let (d, r) ← readLimb r
  if lt ⟨a, b, c, d⟩ then some (⟨a, b, c, d⟩, r) else none

/-- `read_raw`: four limbs, rejected unless below the modulus.
Models halo2curves/src/derive/field.rs lines 358-369. -/
def readRaw (modulus : Limbs) (r : List UInt8) : Option (Limbs × List UInt8) :=
  readRawIf (fun elt => elt.isLessThan modulus) r

/-- `write_raw`. Models halo2curves/src/derive/field.rs lines 370-375. -/
def writeRaw (a : Limbs) : List UInt8 :=
  leBytes 8 a.l0 ++ leBytes 8 a.l1 ++ leBytes 8 a.l2 ++ leBytes 8 a.l3

/-- An affine point of the first group: its stored coordinates.
Models the struct `G1Affine` of halo2curves/src/derive/curve.rs (fields `x`, `y`). -/
structure G1Raw where
  x : Limbs
  y : Limbs
  deriving DecidableEq, Repr

/-- An element of the quadratic extension. Models halo2curves/src/bn256/fq2.rs `Fq2`. -/
structure Fq2Raw where
  c0 : Limbs
  c1 : Limbs
  deriving DecidableEq, Repr

/-- An affine point of the second group. -/
structure G2Raw where
  x : Fq2Raw
  y : Fq2Raw
  deriving DecidableEq, Repr

/-- Two readers one after the other. Models the bodies of `read_raw` in
halo2curves/src/derive/curve.rs lines 677-681 and halo2curves/src/bn256/fq2.rs lines 598-602. -/
def readPair {α β : Type} (f : List UInt8 → Option (α × List UInt8)) (mk : α → α → β)
    (r : List UInt8) : Option (β × List UInt8) := do
  let (x, r) ← f r
  let (y, r) ← f r
  some (mk x y, r)

/-- `read_raw` of a point of the first group. Models halo2curves/src/derive/curve.rs lines 677-681:
both coordinates are read, the curve equation is not looked at. -/
def readG1 : List UInt8 → Option (G1Raw × List UInt8) :=
  readPair (readRaw fqModulus) G1Raw.mk

/-- `write_raw` of a point of the first group. Models halo2curves/src/derive/curve.rs lines
682-685. -/
def writeG1 (p : G1Raw) : List UInt8 := writeRaw p.x ++ writeRaw p.y

/-- `read_raw` of `Fq2`. Models halo2curves/src/bn256/fq2.rs lines 598-602. -/
def readFq2 : List UInt8 → Option (Fq2Raw × List UInt8) :=
  readPair (readRaw fqModulus) Fq2Raw.mk

/-- `write_raw` of `Fq2`. Models halo2curves/src/bn256/fq2.rs lines 603-606. -/
def writeFq2 (p : Fq2Raw) : List UInt8 := writeRaw p.c0 ++ writeRaw p.c1

/-- `read_raw` of a point of the second group. Models halo2curves/src/derive/curve.rs lines
677-681. -/
def readG2 : List UInt8 → Option (G2Raw × List UInt8) :=
  readPair readFq2 G2Raw.mk

/-- `write_raw` of a point of the second group. Models halo2curves/src/derive/curve.rs lines
682-685. -/
def writeG2 (p : G2Raw) : List UInt8 := writeFq2 p.x ++ writeFq2 p.y

end Verif
