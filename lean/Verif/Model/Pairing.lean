import Verif.Model.Curve
import Verif.Model.Tower

/-!
The pairing of bn256 as the code computes it: `halo2curves/src/bn256/engine.rs`, and the constants of the
second group in `halo2curves/src/bn256/curve.rs`.

As in `Model/Tower` the base field is any field with decidable equality. `x.square_assign()`, `x -= y` and so
on are functions from the old to the new value. A vector with its iterator is a list.
-/

namespace Verif.Tower

/-- `SIX_U_PLUS_2_NAF`. Models halo2curves/src/bn256/engine.rs lines 22-26. -/
def sixUPlus2Naf : List Int :=
  [0, 0, 0, 1, 0, 1, 0, -1, 0, 0, 1, -1, 0, 0, 1, 0, 0, 1, 1, 0, -1, 0, 0, 1, 0, -1, 0, 0, 0, 0,
   1, 1, 1, 0, 0, -1, 0, 0, 1, 0, 0, 0, 0, 0, -1, 0, 0, 1, 1, 0, 0, -1, 0, 0, 0, 1, 1, 0, -1, 0,
   0, 1, 0, 1, 1]

/-- `XI_TO_Q_MINUS_1_OVER_2`, stored form. Models halo2curves/src/bn256/engine.rs lines 28-41. -/
def xiToQMinus1Over2 : Fq2 Limbs :=
  ⟨⟨0xe4bbdd0c2936b629, 0xbb30f162e133bacb, 0x31a9d1b6f9645366, 0x253570bea500f8dd⟩,
   ⟨0xa1d77ce45ffe77c7, 0x07affd117826d1db, 0x6d16bd27bb7edc6b, 0x2c87200285defecc⟩⟩

/-- The integer with the given words, lowest first: the argument of `from_raw`. -/
def raw (a b c d : Nat) : Nat := a + W64 * (b + W64 * (c + W64 * d))

/-- The bits of the bytes in the given order, the highest of a byte first, without the first of all. Models
`.flat_map(..).skip(1)` in halo2curves/src/bn256/curve.rs lines 206-210, 233-237. -/
def bitsAfterFirst (e : List UInt8) : List Bool :=
  (e.flatMap fun byte => (List.range 8).reverse.map fun i => byte.toNat.testBit i).drop 1

/-- The loop of `clear_cofactor` and of `is_torsion_free`. Models halo2curves/src/bn256/curve.rs lines 205-214, 232-240. -/
def timesConst {K : Type} [Field K] [DecidableEq K] (p : Jac K) (e : List UInt8) : Jac K :=
  (bitsAfterFirst e).foldl
    (fun acc bit =>
      let acc := acc.double
      if bit then acc.add p else acc)
    Jac.identity

/-- `clear_cofactor` of the second group; as in `Model/Curve` over the field of the coordinates. Models halo2curves/src/bn256/curve.rs lines 196-215. -/
def clearCofactor2 {K : Type} [Field K] [DecidableEq K] (p : Jac K) : Jac K :=
  timesConst p
    [0x30, 0x64, 0x4e, 0x72, 0xe1, 0x31, 0xa0, 0x29, 0xb8, 0x50, 0x45, 0xb6, 0x81, 0x81,
     0x58, 0x5e, 0x06, 0xce, 0xec, 0xda, 0x57, 0x2a, 0x24, 0x89, 0x34, 0x5f, 0x22, 0x99,
     0xc0, 0xf9, 0xfa, 0x8d]

/-- `is_torsion_free` of the second group. Models halo2curves/src/bn256/curve.rs lines 221-242. -/
def isTorsionFree2 {K : Type} [Field K] [DecidableEq K] (p : Jac K) : Bool :=
  (timesConst p
    [0x30, 0x64, 0x4e, 0x72, 0xe1, 0x31, 0xa0, 0x29, 0xb8, 0x50, 0x45, 0xb6, 0x81, 0x81,
     0x58, 0x5d, 0x28, 0x33, 0xe8, 0x48, 0x79, 0xb9, 0x70, 0x91, 0x43, 0xe1, 0xf5, 0x93,
     0xf0, 0x00, 0x00, 0x01]).isIdentity

variable {F : Type} [Field F] [DecidableEq F]

/-- `G2_B`. Models halo2curves/src/bn256/curve.rs lines 85-98; `from_raw` gives the residue (C57). -/
def g2B : Fq2 F :=
  ⟨(raw 0x3267e6dc24a138e5 0xb5b4c5e559dbefa3 0x81be18991be06ac3 0x2b149d40ceb8aaae : Nat),
   (raw 0xe4a2bd0685c315d2 0xa74fa084e52d1852 0xcd2cafadeed8fdf4 0x009713b03af0fed4 : Nat)⟩

/-- The generator of the second group. Models halo2curves/src/bn256/curve.rs lines 100-128. -/
def g2Generator : Aff (Fq2 F) :=
  ⟨⟨(raw 0x46debd5cd992f6ed 0x674322d4f75edadd 0x426a00665e5c4479 0x1800deef121f1e76 : Nat),
    (raw 0x97e485b7aef312c2 0xf1aa493335a9e712 0x7260bfb731fb5d25 0x198e9393920d483a : Nat)⟩,
   ⟨(raw 0x4ce6cc0166fa7daa 0xe3d1e7690c43d37b 0x4aab71808dcb408f 0x12c85ea5db8c6deb : Nat),
    (raw 0x55acdadcd122975b 0xbc4b313370b38ef3 0xec9e99ad690c3395 0x090689d0585ff075 : Nat)⟩⟩

/-- The three numbers that describe a line. -/
abbrev Line (F : Type) := Fq2 F × Fq2 F × Fq2 F

/-- `doubling_step`: the new point and the line. Models halo2curves/src/bn256/engine.rs lines 225-300. -/
def doublingStep (r : Jac (Fq2 F)) : Jac (Fq2 F) × Line F :=
  let tmp0 := r.x.square
  let tmp1 := r.y.square
  let tmp2 := tmp1.square
  let tmp3 := tmp1 + r.x
  let tmp3 := tmp3.square
  let tmp3 := tmp3 - tmp0
  let tmp3 := tmp3 - tmp2
  let tmp3 := tmp3.double
  let tmp4 := tmp0.double
  let tmp4 := tmp4 + tmp0
  let tmp6 := r.x + tmp4
  let tmp5 := tmp4.square
  let zsquared := r.z.square
  let x := tmp5
  let x := x - tmp3
  let x := x - tmp3
  let z := r.z + r.y
  let z := z.square
  let z := z - tmp1
  let z := z - zsquared
  let y := tmp3
  let y := y - x
  let y := y.mulAssign tmp4
  let tmp2 := tmp2.double
  let tmp2 := tmp2.double
  let tmp2 := tmp2.double
  let y := y - tmp2
  let tmp3 := tmp4
  let tmp3 := tmp3.mulAssign zsquared
  let tmp3 := tmp3.double
  let tmp3 := -tmp3
  let tmp6 := tmp6.square
  let tmp6 := tmp6 - tmp0
  let tmp6 := tmp6 - tmp5
  let tmp1 := tmp1.double
  let tmp1 := tmp1.double
  let tmp6 := tmp6 - tmp1
  let tmp0 := z
  let tmp0 := tmp0.mulAssign zsquared
  let tmp0 := tmp0.double
  (⟨x, y, z⟩, (tmp0, tmp3, tmp6))

/-- `addition_step`. Models halo2curves/src/bn256/engine.rs lines 302-408. -/
def additionStep (r : Jac (Fq2 F)) (q : Aff (Fq2 F)) : Jac (Fq2 F) × Line F :=
  let zsquared := r.z.square
  let ysquared := q.y.square
  let t0 := zsquared.mulAssign q.x
  let t1 := q.y + r.z
  let t1 := t1.square
  let t1 := t1 - ysquared
  let t1 := t1 - zsquared
  let t1 := t1.mulAssign zsquared
  let t2 := t0 - r.x
  let t3 := t2.square
  let t4 := t3.double
  let t4 := t4.double
  let t5 := t4.mulAssign t2
  let t6 := t1 - r.y
  let t6 := t6 - r.y
  let t9 := t6.mulAssign q.x
  let t7 := t4.mulAssign r.x
  let x := t6.square
  let x := x - t5
  let x := x - t7
  let x := x - t7
  let z := r.z + t2
  let z := z.square
  let z := z - zsquared
  let z := z - t3
  let t10 := q.y + z
  let t8 := t7 - x
  let t8 := t8.mulAssign t6
  let t0 := r.y.mulAssign t5
  let t0 := t0.double
  let y := t8 - t0
  let t10 := t10.square
  let t10 := t10 - ysquared
  let ztsquared := z.square
  let t10 := t10 - ztsquared
  let t9 := t9.double
  let t9 := t9 - t10
  let t10 := z.double
  let t6 := -t6
  let t1 := t6.double
  (⟨x, y, z⟩, (t10, t1, t9))

/-- `G2Prepared`. Models halo2curves/src/bn256/engine.rs lines 206-210. -/
structure G2Prepared (F : Type) where
  coeffs : List (Line F)
  infinity : Bool

/-- The loop of `from_affine` over the digits below the first, from the highest; gives the point and the
lines in order. Models halo2curves/src/bn256/engine.rs lines 416-428. -/
def prepareLoop (q negq : Aff (Fq2 F)) : List Int → Jac (Fq2 F) → Jac (Fq2 F) × List (Line F)
  | [], r => (r, [])
  | x :: xs, r =>
    let (r, l) := doublingStep r
    if x = 1 then
      let (r, l') := additionStep r q
      let (r, ls) := prepareLoop q negq xs r
      (r, l :: l' :: ls)
    else if x = -1 then
      let (r, l') := additionStep r negq
      let (r, ls) := prepareLoop q negq xs r
      (r, l :: l' :: ls)
    else
      let (r, ls) := prepareLoop q negq xs r
      (r, l :: ls)

/-- The digits in the order of the loops: all but the last of the list, from the back. Models the ranges in
halo2curves/src/bn256/engine.rs lines 416-418 and 588-595. -/
def loopDigits : List Int := sixUPlus2Naf.dropLast.reverse

/-- `q1` of `from_affine`. Models halo2curves/src/bn256/engine.rs lines 430-436. -/
def frobTwist (dec : Limbs → F) (q : Aff (Fq2 F)) : Aff (Fq2 F) :=
  let x : Fq2 F := ⟨q.x.c0, -q.x.c1⟩
  let x := x.mulAssign ((consts dec frobFq6C1).getD 1 0)
  let y : Fq2 F := ⟨q.y.c0, -q.y.c1⟩
  let y := y.mulAssign (xiToQMinus1Over2.map dec)
  ⟨x, y⟩

/-- `minusq2` of `from_affine`. Models halo2curves/src/bn256/engine.rs lines 440-441. -/
def minusFrobTwist2 (dec : Limbs → F) (q : Aff (Fq2 F)) : Aff (Fq2 F) :=
  ⟨q.x.mulAssign ((consts dec frobFq6C1).getD 2 0), q.y⟩

/-- `is_identity` of the second group. Models halo2curves/src/derive/curve.rs lines 704-706. -/
def isIdentity2 (q : Aff (Fq2 F)) : Bool := q.x.isZero && q.y.isZero

/-- `from_affine`. Models halo2curves/src/bn256/engine.rs lines 217-449. -/
def G2Prepared.fromAffine (dec : Limbs → F) (q : Aff (Fq2 F)) : G2Prepared F :=
  if isIdentity2 q then ⟨[], true⟩
  else
    let r : Jac (Fq2 F) := ⟨q.x, q.y, 1⟩
    let negq : Aff (Fq2 F) := ⟨q.x, -q.y⟩
    let (r, coeffs) := prepareLoop q negq loopDigits r
    let (r, l1) := additionStep r (frobTwist dec q)
    let (_, l2) := additionStep r (minusFrobTwist2 dec q)
    ⟨coeffs ++ [l1, l2], false⟩

/-- `ell`. Models halo2curves/src/bn256/engine.rs lines 571-584. -/
def ell (f : Fq12 F) (coeffs : Line F) (p : Aff F) : Fq12 F :=
  let c0 : Fq2 F := ⟨coeffs.1.c0 * p.y, coeffs.1.c1 * p.y⟩
  let c1 : Fq2 F := ⟨coeffs.2.1.c0 * p.x, coeffs.2.1.c1 * p.x⟩
  f.mulBy034 c0 c1 coeffs.2.2

/-- A point with the lines that are left. -/
abbrev Pair (F : Type) := Aff F × List (Line F)

/-- `for (p, coeffs) in pairs { ell(f, coeffs.next().unwrap(), p) }`. Models
halo2curves/src/bn256/engine.rs lines 592-594, 598-600, 603-605, 611-613, 615-617. -/
def ellAll : List (Pair F) → Fq12 F → Except Panic (Fq12 F × List (Pair F))
  | [], f => .ok (f, [])
  | (p, l :: ls) :: rest, f =>
    match ellAll rest (ell f l p) with
    | .ok (f, rest) => .ok (f, (p, ls) :: rest)
    | .error e => .error e
  | (_, []) :: _, _ => .error .unwrap

/-- The loop of `multi_miller_loop`; `first` holds in the first round, in which `f` is not squared. Models
halo2curves/src/bn256/engine.rs lines 588-609. -/
def millerLoop : List Int → Bool → List (Pair F) → Fq12 F → Except Panic (Fq12 F × List (Pair F))
  | [], _, pairs, f => .ok (f, pairs)
  | x :: xs, first, pairs, f => do
    let f := if first then f else f.square
    let (f, pairs) ← ellAll pairs f
    if x = 1 then
      let (f, pairs) ← ellAll pairs f
      millerLoop xs false pairs f
    else if x = -1 then
      let (f, pairs) ← ellAll pairs f
      millerLoop xs false pairs f
    else millerLoop xs false pairs f

/-- `multi_miller_loop`. Models halo2curves/src/bn256/engine.rs lines 563-624. -/
def multiMillerLoop (terms : List (Aff F × G2Prepared F)) : Except Panic (Fq12 F) := do
  let pairs : List (Pair F) :=
    (terms.filter fun t => !t.1.isIdentity && !t.2.infinity).map fun t => (t.1, t.2.coeffs)
  let (f, pairs) ← millerLoop loopDigits true pairs 1
  let (f, pairs) ← ellAll pairs f
  let (f, pairs) ← ellAll pairs f
  if pairs.all fun p => p.2.isEmpty then .ok f else .error .assert

/-- `pairing`. Models halo2curves/src/bn256/engine.rs lines 626-631. -/
def pairing (dec : Limbs → F) (p : Aff F) (q : Aff (Fq2 F)) : Except Panic (Fq12 F) := do
  let u ← multiMillerLoop [(p, G2Prepared.fromAffine dec q)]
  u.finalExponentiation dec

/-- The last part of `check` of the two sums: whether their pairings with the points of the parameters cancel.
`left` and `right` are the evaluated sums. Models halo2_proofs/src/poly/kzg/msm.rs lines 152-168; `-g2` is
halo2curves/src/derive/curve.rs lines 938-947. -/
def pairingCheck (dec : Limbs → F) (g2 sG2 : Aff (Fq2 F)) (left right : Aff F) : Except Panic Bool := do
  let u ← multiMillerLoop [(left, G2Prepared.fromAffine dec sG2), (right, G2Prepared.fromAffine dec ⟨g2.x, -g2.y⟩)]
  let u ← u.finalExponentiation dec
  return decide (u = 1)

/-! The target group. -/

/-- `identity` of `Gt`. Models halo2curves/src/bn256/engine.rs lines 91-94. -/
def gtIdentity : Fq12 F := 1

/-- `Gt::default()`, which the compiler derives. Models halo2curves/src/bn256/engine.rs line 61 and the
derived `Default` of `Fq12`, `Fq6`, `Fq2` and `Fq`. -/
def gtDefault : Fq12 F := 0

/-- `a + b` of `Gt`. Models halo2curves/src/bn256/engine.rs lines 123-130. -/
def gtAdd (a b : Fq12 F) : Fq12 F := a * b

/-- `-a` of `Gt`. Models halo2curves/src/bn256/engine.rs lines 102-112. -/
def gtNeg (a : Fq12 F) : Fq12 F := a.conjugate

/-- `double` of `Gt`. Models halo2curves/src/bn256/engine.rs lines 96-99. -/
def gtDouble (a : Fq12 F) : Fq12 F := a.square

/-- `is_identity` of `Gt`. Models halo2curves/src/bn256/engine.rs lines 196-198. -/
def gtIsIdentity (a : Fq12 F) : Bool := decide (a = 1)

/-- `a * scalar` of `Gt`; the scalar is its canonical bytes, lowest first. The first of the 256 bits is
skipped; it is zero. Models halo2curves/src/bn256/engine.rs lines 141-160. -/
def gtMul (a : Fq12 F) (s : Nat) : Fq12 F :=
  (List.range 255).reverse.foldl (fun acc i => if s.testBit i then gtAdd (gtDouble acc) a else gtDouble acc) gtIdentity

end Verif.Tower
