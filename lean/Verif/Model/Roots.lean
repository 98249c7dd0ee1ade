import Verif.Model.Domain
import Verif.Model.FieldArith
import Verif.Model.Tower

/-!
Square roots: `sqrt_tonelli_shanks` in `halo2curves/src/arithmetic.rs`, `sqrt` of `Fr` and of `Fq2`.
-/

namespace Verif

open Tower

/-- `pow` and `pow_vartime` with an exponent of four words: square and multiply over all 256 bits, from the top. The
two are provided methods of traits of the crates pasta_curves and ff, which are not part of the repository; used in
halo2curves/src/arithmetic.rs line 34 and bn256/fq2.rs lines 357 and 391. -/
def powWords {K : Type} [One K] [Mul K] (square : K → K) (a : K) (e : Limbs) : K :=
  (FieldConsts.wordBits e.l3 ++ FieldConsts.wordBits e.l2 ++ FieldConsts.wordBits e.l1 ++ FieldConsts.wordBits e.l0).foldl
    (fun acc bit => if bit then square acc * a else square acc) 1

variable {F : Type} [Field F] [DecidableEq F]

/-- The variables of the inner loop. Models halo2curves/src/arithmetic.rs lines 44-46. -/
structure TsInner (F : Type) where
  tmp : F
  k : Nat
  z : F
  less : Bool

/-- One round of the inner loop. Models halo2curves/src/arithmetic.rs lines 49-55. -/
def TsInner.round (v : Nat) (s : TsInner F) (j : Nat) : TsInner F :=
  let isOne := decide (s.tmp = 1)
  let base := if isOne then s.z else s.tmp
  let squared := base * base
  let tmp := if isOne then s.tmp else squared
  let newZ := if isOne then squared else s.z
  let less := s.less && !decide (j = v)
  ⟨tmp, if isOne then s.k else j, if less then newZ else s.z, less⟩

/-- The variables of the outer loop. Models halo2curves/src/arithmetic.rs lines 36-41. -/
structure TsOuter (F : Type) where
  v : Nat
  x : F
  b : F
  z : F

/-- One round of the outer loop. Models halo2curves/src/arithmetic.rs lines 43-63. -/
def TsOuter.round (s : TsOuter F) (maxV : Nat) : TsOuter F :=
  let inner := (List.range' 2 (maxV - 2)).foldl (TsInner.round s.v) ⟨s.b * s.b, 1, s.z, true⟩
  let result := s.x * inner.z
  let z := inner.z * inner.z
  ⟨inner.k, if s.b = 1 then s.x else result, s.b * z, z⟩

/-- `sqrt_tonelli_shanks`, for a field with the constants `S`, `root_of_unity` and the exponent. Models
halo2curves/src/arithmetic.rs lines 27-69. -/
def sqrtTonelli (S : Nat) (root : F) (e : Limbs) (f : F) : Option F :=
  let w := powWords (fun a => a * a) f e
  let x := w * f
  let s := (List.range' 1 S).reverse.foldl TsOuter.round ⟨S, x, x * w, root⟩
  if s.x * s.x = f then some s.x else none

/-- `sqrt` of the scalar field. Models halo2curves/src/bn256/fr.rs lines 176-178 and 254-261. -/
def frSqrt (f : Fr) : Option Fr :=
  sqrtTonelli twoAdicity rootOfUnity ⟨0xcdcb848a1f0fac9f, 0x0c0ac2e9419f4243, 0x098d014dc2822db4, 0x0000000183227397⟩ f

/-- `sqrt` of the quadratic extension. Models halo2curves/src/bn256/fq2.rs lines 343-397; `NEGATIVE_ONE` is given in
halo2curves/src/bn256/fq.rs lines 64-69 in stored form. -/
def Tower.Fq2.sqrt (dec : Limbs → F) (a : Fq2 F) : Option (Fq2 F) :=
  if a.isZero then some 0
  else
    let a1 := powWords Fq2.square a ⟨0x4f082305b61f3f51, 0x65e05aa45a1c72a3, 0x6e14116da0605617, 0x0c19139cb84c680a⟩
    let alpha := a1.square.mulAssign a
    let a0 := (alpha.frobeniusMap dec 1).mulAssign alpha
    let neg1 : Fq2 F := ⟨dec ⟨0x68c3488912edefaa, 0x8d087f6872aabf4f, 0x51e1a24709081231, 0x2259d6b14729c0fa⟩, 0⟩
    if a0 = neg1 then none
    else
      let a1 := a1.mulAssign a
      if alpha = neg1 then some (a1.mulAssign ⟨0, 1⟩)
      else
        let alpha := alpha + 1
        let alpha := powWords Fq2.square alpha ⟨0x9e10460b6c3e7ea3, 0xcbc0b548b438e546, 0xdc2822db40c0ac2e, 0x183227397098d014⟩
        some (a1.mulAssign alpha)

/-- `legendre` of the quadratic extension: that of the norm. Models halo2curves/src/bn256/fq2.rs lines 156-158 and
bn256/fq.rs lines 124-141. -/
def Tower.Fq2.legendre (a : Fq2 F) : Int :=
  let s := powWords (fun a => a * a) a.norm
    ⟨0x9e10460b6c3e7ea3, 0xcbc0b548b438e546, 0xdc2822db40c0ac2e, 0x183227397098d014⟩
  if s = 0 then 0 else if s = 1 then 1 else -1

end Verif
