import Mathlib.Algebra.Field.Defs
import Verif.Model.Bytes
import Verif.Model.Limbs

/-!
The extension fields of bn256 as the code computes with them: `halo2curves/src/bn256/fq2.rs`, `fq6.rs`,
`fq12.rs`.

The base field is any field with decidable equality; for bn256 it is the type of stored forms with the
operations of `Model/FieldArith` or, by C57, residues. `x.mul_assign(y)`, `x.square_assign()` and so on are
functions from the old to the new value. The operator `a * b` is `a.mul(b)`, which calls `mul_assign` with
the two exchanged; `a *= b` is `a * b`.
-/

namespace Verif.Tower

/-- `c0 + c1 u`. Models halo2curves/src/bn256/fq2.rs lines 11-16. -/
@[ext]
structure Fq2 (F : Type) where
  c0 : F
  c1 : F
  deriving DecidableEq, Repr

/-- `c0 + c1 v + c2 v²`. Models halo2curves/src/bn256/fq6.rs lines 8-13. -/
@[ext]
structure Fq6 (F : Type) where
  c0 : Fq2 F
  c1 : Fq2 F
  c2 : Fq2 F
  deriving DecidableEq

/-- `c0 + c1 w`. Models halo2curves/src/bn256/fq12.rs lines 9-13. -/
@[ext]
structure Fq12 (F : Type) where
  c0 : Fq6 F
  c1 : Fq6 F
  deriving DecidableEq

/-- `f` in every coordinate. -/
def Fq2.map {F K : Type} (f : F → K) (a : Fq2 F) : Fq2 K := ⟨f a.c0, f a.c1⟩

/-- `FROBENIUS_COEFF_FQ2_C1`, stored forms. Models halo2curves/src/bn256/fq2.rs lines 609-625. -/
def frobFq2C1 : List Limbs :=
  [⟨0xd35d438dc58f0d9d, 0x0a78eb28f5c70b3d, 0x666ea36f7879462c, 0x0e0a77c19a07df2f⟩,
   ⟨0x68c3488912edefaa, 0x8d087f6872aabf4f, 0x51e1a24709081231, 0x2259d6b14729c0fa⟩]

/-- `FROBENIUS_COEFF_FQ6_C1`, stored forms. Models halo2curves/src/bn256/fq6.rs lines 424-502. -/
def frobFq6C1 : List (Fq2 Limbs) :=
  [⟨⟨0xd35d438dc58f0d9d, 0x0a78eb28f5c70b3d, 0x666ea36f7879462c, 0x0e0a77c19a07df2f⟩, ⟨0x0, 0x0, 0x0, 0x0⟩⟩,
   ⟨⟨0xb5773b104563ab30, 0x347f91c8a9aa6454, 0x7a007127242e0991, 0x1956bcd8118214ec⟩, ⟨0x6e849f1ea0aa4757, 0xaa1c7b6d89f89141, 0xb6e713cdfae0ca3a, 0x26694fbb4e82ebc3⟩⟩,
   ⟨⟨0x3350c88e13e80b9c, 0x7dce557cdb5e56b9, 0x6001b4b8b615564a, 0x2682e617020217e0⟩, ⟨0x0, 0x0, 0x0, 0x0⟩⟩,
   ⟨⟨0xc9af22f716ad6bad, 0xb311782a4aa662b2, 0x19eeaf64e248c7f4, 0x20273e77e3439f82⟩, ⟨0xacc02860f7ce93ac, 0x3933d5817ba76b4c, 0x69e6188b446c8467, 0x0a46036d4417cc55⟩⟩,
   ⟨⟨0x71930c11d782e155, 0xa6bb947cffbe3323, 0xaa303344d4741444, 0x2c3b3f0d26594943⟩, ⟨0x0, 0x0, 0x0, 0x0⟩⟩,
   ⟨⟨0xf91aba2654e8e3b1, 0x4771cb2fdc92ce12, 0xdcb16ae0fc8bdf35, 0x274aa195cd9d8be4⟩, ⟨0x5cfc50ae18811f8b, 0x4bb28433cb43988c, 0x4fd35f13c3b56219, 0x301949bd2fc8883a⟩⟩]

/-- `FROBENIUS_COEFF_FQ6_C2`, stored forms. Models halo2curves/src/bn256/fq6.rs lines 504-580. -/
def frobFq6C2 : List (Fq2 Limbs) :=
  [⟨⟨0xd35d438dc58f0d9d, 0x0a78eb28f5c70b3d, 0x666ea36f7879462c, 0x0e0a77c19a07df2f⟩, ⟨0x0, 0x0, 0x0, 0x0⟩⟩,
   ⟨⟨0x7361d77f843abe92, 0xa5bb2bd3273411fb, 0x9c941f314b3e2399, 0x15df9cddbb9fd3ec⟩, ⟨0x5dddfd154bd8c949, 0x62cb29a5a4445b60, 0x37bc870a0c7dd2b9, 0x24830a9d3171f0fd⟩⟩,
   ⟨⟨0x71930c11d782e155, 0xa6bb947cffbe3323, 0xaa303344d4741444, 0x2c3b3f0d26594943⟩, ⟨0x0, 0x0, 0x0, 0x0⟩⟩,
   ⟨⟨0x448a93a57b6762df, 0xbfd62df528fdeadf, 0xd858f5d00e9bd47a, 0x06b03d4d3476ec58⟩, ⟨0x2b19daf4bcc936d1, 0xa1a54e7a56f4299f, 0xb533eee05adeaef1, 0x170c812b84dda0b2⟩⟩,
   ⟨⟨0x3350c88e13e80b9c, 0x7dce557cdb5e56b9, 0x6001b4b8b615564a, 0x2682e617020217e0⟩, ⟨0x0, 0x0, 0x0, 0x0⟩⟩,
   ⟨⟨0x843420f1d8dadbd6, 0x31f010c9183fcdb2, 0x436330b527a76049, 0x13d47447f11adfe4⟩, ⟨0xef494023a857fa74, 0x2a925d02d5ab101a, 0x83b015829ba62f10, 0x2539111d0c13aea3⟩⟩]

/-- `FROBENIUS_COEFF_FQ12_C1`, stored forms. Models halo2curves/src/bn256/fq12.rs lines 322-474. -/
def frobFq12C1 : List (Fq2 Limbs) :=
  [⟨⟨0xd35d438dc58f0d9d, 0x0a78eb28f5c70b3d, 0x666ea36f7879462c, 0x0e0a77c19a07df2f⟩, ⟨0x0, 0x0, 0x0, 0x0⟩⟩,
   ⟨⟨0xaf9ba69633144907, 0xca6b1d7387afb78a, 0x11bded5ef08a2087, 0x02f34d751a1f3a7c⟩, ⟨0xa222ae234c492d72, 0xd00f02a4565de15b, 0xdc2ff3a253dfc926, 0x10a75716b3899551⟩⟩,
   ⟨⟨0xca8d800500fa1bf2, 0xf0c5d61468b39769, 0x0e201271ad0d4418, 0x04290f65bad856e6⟩, ⟨0x0, 0x0, 0x0, 0x0⟩⟩,
   ⟨⟨0x365316184e46d97d, 0x0af7129ed4c96d9f, 0x659da72fca1009b5, 0x08116d8983a20d23⟩, ⟨0xb1df4af7c39c1939, 0x3d9f02878a73bf7f, 0x9b2220928caf0ae0, 0x26684515eff054a6⟩⟩,
   ⟨⟨0x3350c88e13e80b9c, 0x7dce557cdb5e56b9, 0x6001b4b8b615564a, 0x2682e617020217e0⟩, ⟨0x0, 0x0, 0x0, 0x0⟩⟩,
   ⟨⟨0x86b76f821b329076, 0x408bf52b4d19b614, 0x53dfb9d0d985e92d, 0x051e20146982d2a7⟩, ⟨0x0fbc9cd47752ebc7, 0x6d8fffe33415de24, 0xbef22cf038cf41b9, 0x15c0edff3c66bf54⟩⟩,
   ⟨⟨0x68c3488912edefaa, 0x8d087f6872aabf4f, 0x51e1a24709081231, 0x2259d6b14729c0fa⟩, ⟨0x0, 0x0, 0x0, 0x0⟩⟩,
   ⟨⟨0x8c84e580a568b440, 0xcd164d1de0c21302, 0xa692585790f737d5, 0x2d7100fdc71265ad⟩, ⟨0x99fdddf38c33cfd5, 0xc77267ed1213e931, 0xdc2052142da18f36, 0x1fbcf75c2da80ad7⟩⟩,
   ⟨⟨0x71930c11d782e155, 0xa6bb947cffbe3323, 0xaa303344d4741444, 0x2c3b3f0d26594943⟩, ⟨0x0, 0x0, 0x0, 0x0⟩⟩,
   ⟨⟨0x05cd75fe8a3623ca, 0x8c8a57f293a85cee, 0x52b29e86b7714ea8, 0x2852e0e95d8f9306⟩, ⟨0x8a41411f14e0e40e, 0x59e26809ddfe0b0d, 0x1d2e2523f4d24d7d, 0x09fc095cf1414b83⟩⟩,
   ⟨⟨0x08cfc388c494f1ab, 0x19b315148d1373d4, 0x584e90fdcb6c0213, 0x09e1685bdf2f8849⟩, ⟨0x0, 0x0, 0x0, 0x0⟩⟩,
   ⟨⟨0xb5691c94bd4a6cd1, 0x56f575661b581478, 0x64708be5a7fb6f30, 0x2b462e5e77aecd82⟩, ⟨0x2c63ef42612a1180, 0x29f16aae345bec69, 0xf95e18c648b216a4, 0x1aa36073a4cae0d4⟩⟩]

variable {F : Type} [Field F] [DecidableEq F]

namespace Fq2

/-- `mul_assign`. Models halo2curves/src/bn256/fq2.rs lines 160-169. -/
def mulAssign (a b : Fq2 F) : Fq2 F :=
  let t1 := a.c0 * b.c0
  let t0 := a.c0 + a.c1
  let t2 := a.c1 * b.c1
  let c1 := b.c0 + b.c1
  let c0 := t1 - t2
  let t1 := t1 + t2
  let t0 := t0 * c1
  ⟨c0, t0 - t1⟩

/-- `mul`. Models halo2curves/src/bn256/fq2.rs lines 208-212. -/
def mul (a b : Fq2 F) : Fq2 F := mulAssign b a

/-- `add`. Models halo2curves/src/bn256/fq2.rs lines 194-199. -/
def add (a b : Fq2 F) : Fq2 F := ⟨a.c0 + b.c0, a.c1 + b.c1⟩

/-- `sub`. Models halo2curves/src/bn256/fq2.rs lines 201-206. -/
def sub (a b : Fq2 F) : Fq2 F := ⟨a.c0 - b.c0, a.c1 - b.c1⟩

/-- `neg`. Models halo2curves/src/bn256/fq2.rs lines 220-225. -/
def neg (a : Fq2 F) : Fq2 F := ⟨-a.c0, -a.c1⟩

instance : Mul (Fq2 F) := ⟨mul⟩
instance : Add (Fq2 F) := ⟨add⟩
instance : Sub (Fq2 F) := ⟨sub⟩
instance : Neg (Fq2 F) := ⟨neg⟩

/-- `zero`. Models halo2curves/src/bn256/fq2.rs lines 317-322. -/
instance : Zero (Fq2 F) := ⟨⟨0, 0⟩⟩

/-- `one`. Models halo2curves/src/bn256/fq2.rs lines 324-329. -/
instance : One (Fq2 F) := ⟨⟨1, 0⟩⟩

/-- `is_zero`. Models halo2curves/src/bn256/fq2.rs lines 331-333. -/
def isZero (a : Fq2 F) : Bool := decide (a.c0 = 0) && decide (a.c1 = 0)

/-- `square_assign`, `square`. Models halo2curves/src/bn256/fq2.rs lines 171-180 and 214-218; `double` of the
base field is `x + x`. -/
def square (a : Fq2 F) : Fq2 F :=
  let ab := a.c0 * a.c1
  let c0c1 := a.c0 + a.c1
  let c0 := -a.c1
  let c0 := c0 + a.c0
  let c0 := c0 * c0c1
  let c0 := c0 - ab
  ⟨c0 + ab, ab + ab⟩

/-- `double`, `double_assign`. Models halo2curves/src/bn256/fq2.rs lines 182-192. -/
def double (a : Fq2 F) : Fq2 F := ⟨a.c0 + a.c0, a.c1 + a.c1⟩

/-- `conjugate`. Models halo2curves/src/bn256/fq2.rs lines 227-230. -/
def conjugate (a : Fq2 F) : Fq2 F := ⟨a.c0, -a.c1⟩

/-- `mul_by_nonresidue` and `mul_by_xi`, which are the same. Models halo2curves/src/bn256/fq2.rs lines
236-278. -/
def mulByNonresidue (a : Fq2 F) : Fq2 F :=
  let t := a.double.double.double
  ⟨t.c0 + a.c0 - a.c1, t.c1 + a.c1 + a.c0⟩

/-- `norm`. Models halo2curves/src/bn256/fq2.rs lines 280-287. -/
def norm (a : Fq2 F) : F := a.c1 * a.c1 + a.c0 * a.c0

/-- `invert`. Models halo2curves/src/bn256/fq2.rs lines 289-306; inversion in the base field fails for zero
only (C57). -/
def invert (a : Fq2 F) : Option (Fq2 F) :=
  let t := a.c0 * a.c0 + a.c1 * a.c1
  if t = 0 then none else some ⟨a.c0 * t⁻¹, -(a.c1 * t⁻¹)⟩

end Fq2

namespace Fq6

/-- `add`. Models halo2curves/src/bn256/fq6.rs lines 193-199. -/
def add (a b : Fq6 F) : Fq6 F := ⟨a.c0 + b.c0, a.c1 + b.c1, a.c2 + b.c2⟩

/-- `sub`. Models halo2curves/src/bn256/fq6.rs lines 201-207. -/
def sub (a b : Fq6 F) : Fq6 F := ⟨a.c0 - b.c0, a.c1 - b.c1, a.c2 - b.c2⟩

/-- `neg`. Models halo2curves/src/bn256/fq6.rs lines 221-227. -/
def neg (a : Fq6 F) : Fq6 F := ⟨-a.c0, -a.c1, -a.c2⟩

/-- `mul_assign`. Models halo2curves/src/bn256/fq6.rs lines 84-133. -/
def mulAssign (a b : Fq6 F) : Fq6 F :=
  let aa := a.c0 * b.c0
  let bb := a.c1 * b.c1
  let cc := a.c2 * b.c2
  let t1 := b.c1 + b.c2
  let t1 := t1 * (a.c1 + a.c2)
  let t1 := t1 - bb - cc
  let t1 := t1.mulByNonresidue + aa
  let t3 := b.c0 + b.c2
  let t3 := t3 * (a.c0 + a.c2)
  let t3 := t3 - aa + bb - cc
  let t2 := b.c0 + b.c1
  let t2 := t2 * (a.c0 + a.c1)
  let t2 := t2 - aa - bb
  let cc := cc.mulByNonresidue
  let t2 := t2 + cc
  ⟨t1, t2, t3⟩

/-- `mul`. Models halo2curves/src/bn256/fq6.rs lines 209-213. -/
def mul (a b : Fq6 F) : Fq6 F := mulAssign b a

instance : Mul (Fq6 F) := ⟨mul⟩
instance : Add (Fq6 F) := ⟨add⟩
instance : Sub (Fq6 F) := ⟨sub⟩
instance : Neg (Fq6 F) := ⟨neg⟩

/-- `zero`. Models halo2curves/src/bn256/fq6.rs lines 387-393. -/
instance : Zero (Fq6 F) := ⟨⟨0, 0, 0⟩⟩

/-- `one`. Models halo2curves/src/bn256/fq6.rs lines 395-401. -/
instance : One (Fq6 F) := ⟨⟨1, 0, 0⟩⟩

/-- `is_zero`. Models halo2curves/src/bn256/fq6.rs lines 403-405: the third coordinate is not looked at. -/
def isZero (a : Fq6 F) : Bool := a.c0.isZero && a.c1.isZero

/-- `square_assign`, `square`. Models halo2curves/src/bn256/fq6.rs lines 135-177 and 215-219. -/
def square (a : Fq6 F) : Fq6 F :=
  let s0 := a.c0.square
  let ab := a.c0 * a.c1
  let s1 := ab.double
  let s2 := a.c0 - a.c1
  let s2 := s2 + a.c2
  let s2 := s2.square
  let bc := a.c1 * a.c2
  let s3 := bc.double
  let s4 := a.c2.square
  ⟨s3.mulByNonresidue + s0, s4.mulByNonresidue + s1, s1 + s2 + s3 - s0 - s4⟩

/-- `double`, `double_assign`. Models halo2curves/src/bn256/fq6.rs lines 179-191. -/
def double (a : Fq6 F) : Fq6 F := ⟨a.c0.double, a.c1.double, a.c2.double⟩

/-- `mul_by_nonresidue` and `mul_by_v`, which are the same. Models halo2curves/src/bn256/fq6.rs lines
238-254. -/
def mulByNonresidue (a : Fq6 F) : Fq6 F := ⟨a.c2.mulByNonresidue, a.c0, a.c1⟩

/-- `mul_by_1`. Models halo2curves/src/bn256/fq6.rs lines 256-282. -/
def mulBy1 (a : Fq6 F) (c1 : Fq2 F) : Fq6 F :=
  let bb := a.c1 * c1
  let t1 := c1 * (a.c1 + a.c2)
  let t1 := t1 - bb
  let t1 := t1.mulByNonresidue
  let t2 := c1 * (a.c0 + a.c1)
  let t2 := t2 - bb
  ⟨t1, t2, bb⟩

/-- `mul_by_01`. Models halo2curves/src/bn256/fq6.rs lines 284-325. -/
def mulBy01 (a : Fq6 F) (c0 c1 : Fq2 F) : Fq6 F :=
  let aa := a.c0 * c0
  let bb := a.c1 * c1
  let t1 := c1 * (a.c1 + a.c2)
  let t1 := t1 - bb
  let t1 := t1.mulByNonresidue + aa
  let t3 := c0 * (a.c0 + a.c2)
  let t3 := t3 - aa + bb
  let t2 := c0 + c1
  let t2 := t2 * (a.c0 + a.c1)
  let t2 := t2 - aa - bb
  ⟨t1, t2, t3⟩

/-- `invert`. Models halo2curves/src/bn256/fq6.rs lines 327-375. -/
def invert (a : Fq6 F) : Option (Fq6 F) :=
  let c0 := a.c2.mulByNonresidue
  let c0 := c0 * a.c1
  let c0 := -c0
  let c0 := c0 + a.c0.square
  let c1 := a.c2.square
  let c1 := c1.mulByNonresidue
  let c1 := c1 - a.c0 * a.c1
  let c2 := a.c1.square
  let c2 := c2 - a.c0 * a.c2
  let tmp1 := a.c2 * c1
  let tmp2 := a.c1 * c2
  let tmp1 := tmp1 + tmp2
  let tmp1 := tmp1.mulByNonresidue
  let tmp2 := a.c0 * c0
  let tmp1 := tmp1 + tmp2
  tmp1.invert.map fun t => ⟨t * c0, t * c1, t * c2⟩

end Fq6

namespace Fq12

/-- `add`. Models halo2curves/src/bn256/fq12.rs lines 126-131. -/
def add (a b : Fq12 F) : Fq12 F := ⟨a.c0 + b.c0, a.c1 + b.c1⟩

/-- `sub`. Models halo2curves/src/bn256/fq12.rs lines 133-138. -/
def sub (a b : Fq12 F) : Fq12 F := ⟨a.c0 - b.c0, a.c1 - b.c1⟩

/-- `neg`. Models halo2curves/src/bn256/fq12.rs lines 152-158. -/
def neg (a : Fq12 F) : Fq12 F := ⟨-a.c0, -a.c1⟩

/-- `mul_assign`. Models halo2curves/src/bn256/fq12.rs lines 83-95. -/
def mulAssign (a b : Fq12 F) : Fq12 F :=
  let t0 := a.c0 * b.c0
  let t1 := a.c1 * b.c1
  let t2 := b.c0 + b.c1
  let c1 := a.c1 + a.c0
  let c1 := c1 * t2
  let c1 := c1 - t0
  let c1 := c1 - t1
  let t1 := t1.mulByNonresidue
  ⟨t0 + t1, c1⟩

/-- `mul`. Models halo2curves/src/bn256/fq12.rs lines 140-144. -/
def mul (a b : Fq12 F) : Fq12 F := mulAssign b a

instance : Mul (Fq12 F) := ⟨mul⟩
instance : Add (Fq12 F) := ⟨add⟩
instance : Sub (Fq12 F) := ⟨sub⟩
instance : Neg (Fq12 F) := ⟨neg⟩

/-- `zero`. Models halo2curves/src/bn256/fq12.rs lines 286-291. -/
instance : Zero (Fq12 F) := ⟨⟨0, 0⟩⟩

/-- `one`. Models halo2curves/src/bn256/fq12.rs lines 293-298. -/
instance : One (Fq12 F) := ⟨⟨1, 0⟩⟩

/-- `is_zero`. Models halo2curves/src/bn256/fq12.rs lines 300-302. -/
def isZero (a : Fq12 F) : Bool := a.c0.isZero && a.c1.isZero

/-- `square_assign`, `square`. Models halo2curves/src/bn256/fq12.rs lines 97-112 and 146-150. -/
def square (a : Fq12 F) : Fq12 F :=
  let ab := a.c0 * a.c1
  let c0c1 := a.c0 + a.c1
  let c0 := a.c1.mulByNonresidue
  let c0 := c0 + a.c0
  let c0 := c0 * c0c1
  let c0 := c0 - ab
  let c1 := ab + ab
  let ab := ab.mulByNonresidue
  ⟨c0 - ab, c1⟩

/-- `double`, `double_assign`. Models halo2curves/src/bn256/fq12.rs lines 114-124. -/
def double (a : Fq12 F) : Fq12 F := ⟨a.c0.double, a.c1.double⟩

/-- `conjugate`. Models halo2curves/src/bn256/fq12.rs lines 160-163. -/
def conjugate (a : Fq12 F) : Fq12 F := ⟨a.c0, -a.c1⟩

/-- `mul_by_014`. Models halo2curves/src/bn256/fq12.rs lines 181-194. -/
def mulBy014 (a : Fq12 F) (c0 c1 c4 : Fq2 F) : Fq12 F :=
  let aa := a.c0.mulBy01 c0 c1
  let bb := a.c1.mulBy1 c4
  let o := c1 + c4
  let d1 := a.c1 + a.c0
  let d1 := d1.mulBy01 c0 o
  let d1 := d1 - aa
  let d1 := d1 - bb
  let d0 := bb.mulByNonresidue
  ⟨d0 + aa, d1⟩

/-- `mul_by_034`. Models halo2curves/src/bn256/fq12.rs lines 196-211. -/
def mulBy034 (a : Fq12 F) (c0 c3 c4 : Fq2 F) : Fq12 F :=
  let t0 : Fq6 F := ⟨a.c0.c0 * c0, a.c0.c1 * c0, a.c0.c2 * c0⟩
  let t1 := a.c1.mulBy01 c3 c4
  let o := c0 + c3
  let t2 := a.c0 + a.c1
  let t2 := t2.mulBy01 o c4
  let t2 := t2 - t0
  let d1 := t2 - t1
  let t1 := t1.mulByNonresidue
  ⟨t0 + t1, d1⟩

/-- `invert`. Models halo2curves/src/bn256/fq12.rs lines 213-229. -/
def invert (a : Fq12 F) : Option (Fq12 F) :=
  let c0s := a.c0.square
  let c1s := a.c1.square
  let c1s := c1s.mulByNonresidue
  let c0s := c0s - c1s
  c0s.invert.map fun t => ⟨t.mulAssign a.c0, (t.mulAssign a.c1).neg⟩

/-- `fp4_square`. Models halo2curves/src/bn256/fq12.rs lines 232-242. -/
def fp4Square (a0 a1 : Fq2 F) : Fq2 F × Fq2 F :=
  let t0 := a0.square
  let t1 := a1.square
  let t2 := t1.mulByNonresidue
  let c0 := t2 + t0
  let t2 := a0 + a1
  let t2 := t2.square
  let t2 := t2 - t0
  (c0, t2 - t1)

/-- `cyclotomic_square`. Models halo2curves/src/bn256/fq12.rs lines 231-275. -/
def cyclotomicSquare (a : Fq12 F) : Fq12 F :=
  let (t3, t4) := fp4Square a.c0.c0 a.c1.c1
  let t2 := t3 - a.c0.c0
  let t2 := t2.double
  let c00 := t2 + t3
  let t2 := t4 + a.c1.c1
  let t2 := t2.double
  let c11 := t2 + t4
  let (t3, t4) := fp4Square a.c1.c0 a.c0.c2
  let (t5, t6) := fp4Square a.c0.c1 a.c1.c2
  let t2 := t3 - a.c0.c1
  let t2 := t2.double
  let c01 := t2 + t3
  let t2 := t4 + a.c1.c2
  let t2 := t2.double
  let c12 := t2 + t4
  let t3 := t6.mulByNonresidue
  let t2 := t3 + a.c1.c0
  let t2 := t2.double
  let c10 := t2 + t3
  let t2 := t5 - a.c0.c2
  let t2 := t2.double
  let c02 := t2 + t5
  ⟨⟨c00, c01, c02⟩, ⟨c10, c11, c12⟩⟩

end Fq12

/-- The constants of a table, as elements of the base field. `dec` is what a stored form stands for. -/
def consts (dec : Limbs → F) (l : List (Fq2 Limbs)) : List (Fq2 F) := l.map (Fq2.map dec)

/-- `frobenius_map`. Models halo2curves/src/bn256/fq2.rs lines 232-234; the index is below the length of the
table, so the default value is not used. -/
def Fq2.frobeniusMap (dec : Limbs → F) (a : Fq2 F) (power : Nat) : Fq2 F :=
  ⟨a.c0, a.c1 * (frobFq2C1.map dec).getD (power % 2) 0⟩

/-- `frobenius_map`. Models halo2curves/src/bn256/fq6.rs lines 229-236; the indices are below the lengths of
the tables. -/
def Fq6.frobeniusMap (dec : Limbs → F) (a : Fq6 F) (power : Nat) : Fq6 F :=
  let c0 := a.c0.frobeniusMap dec power
  let c1 := a.c1.frobeniusMap dec power
  let c2 := a.c2.frobeniusMap dec power
  ⟨c0, c1.mulAssign ((consts dec frobFq6C1).getD (power % 6) 0), c2.mulAssign ((consts dec frobFq6C2).getD (power % 6) 0)⟩

/-- `frobenius_map`. Models halo2curves/src/bn256/fq12.rs lines 172-179; the index is below the length of the
table. -/
def Fq12.frobeniusMap (dec : Limbs → F) (a : Fq12 F) (power : Nat) : Fq12 F :=
  let c0 := a.c0.frobeniusMap dec power
  let c1 := a.c1.frobeniusMap dec power
  let g := (consts dec frobFq12C1).getD (power % 12) 0
  ⟨c0, ⟨c1.c0.mulAssign g, c1.c1.mulAssign g, c1.c2.mulAssign g⟩⟩

/-- `BN_X`. Models halo2curves/src/bn256/engine.rs line 19. -/
def BN_X : Nat := 4965661367192848881

namespace Fq12

/-- The loop of `exp_by_x` over the bits, from the highest. Models halo2curves/src/bn256/engine.rs lines
465-470. -/
def expBits (f : Fq12 F) (x : Nat) : Nat → Fq12 F → Fq12 F
  | 0, res => res
  | i + 1, res =>
    let res := res.cyclotomicSquare
    let res := if x.testBit i then res.mulAssign f else res
    expBits f x i res

/-- `exp_by_x`. Models halo2curves/src/bn256/engine.rs lines 462-472. -/
def expByX (f : Fq12 F) : Fq12 F := expBits f BN_X 64 1

/-- The part of `final_exponentiation` after the inversion; `f1` is the conjugate and `f2` the inverse of the
argument. Models halo2curves/src/bn256/engine.rs lines 480-556. -/
def finalTail (dec : Limbs → F) (f1 f2 : Fq12 F) : Fq12 F :=
  let r := f1.mulAssign f2
  let f2 := r
  let r := r.frobeniusMap dec 2
  let r := r.mulAssign f2
  let fp := r.frobeniusMap dec 1
  let fp2 := r.frobeniusMap dec 2
  let fp3 := fp2.frobeniusMap dec 1
  let fu := r.expByX
  let fu2 := fu.expByX
  let fu3 := fu2.expByX
  let y3 := fu.frobeniusMap dec 1
  let fu2p := fu2.frobeniusMap dec 1
  let fu3p := fu3.frobeniusMap dec 1
  let y2 := fu2.frobeniusMap dec 2
  let y0 := fp.mulAssign fp2
  let y0 := y0.mulAssign fp3
  let y1 := r.conjugate
  let y5 := fu2.conjugate
  let y3 := y3.conjugate
  let y4 := fu.mulAssign fu2p
  let y4 := y4.conjugate
  let y6 := fu3.mulAssign fu3p
  let y6 := y6.conjugate
  let y6 := y6.cyclotomicSquare
  let y6 := y6.mulAssign y4
  let y6 := y6.mulAssign y5
  let t1 := y3.mulAssign y5
  let t1 := t1.mulAssign y6
  let y6 := y6.mulAssign y2
  let t1 := t1.cyclotomicSquare
  let t1 := t1.mulAssign y6
  let t1 := t1.cyclotomicSquare
  let t0 := t1.mulAssign y1
  let t1 := t1.mulAssign y0
  let t0 := t0.cyclotomicSquare
  t0.mulAssign t1

/-- `final_exponentiation`; it panics when there is no inverse. Models halo2curves/src/bn256/engine.rs lines
461-559. -/
def finalExponentiation (dec : Limbs → F) (a : Fq12 F) : Except Panic (Fq12 F) :=
  match a.invert with
  | some f2 => .ok (finalTail dec a.conjugate f2)
  | none => .error .unwrap

end Fq12

end Verif.Tower
