import Verif.Model.Fr
import Verif.Model.Compile

/-!
Evaluation domains: `halo2_proofs/src/poly/domain.rs`.
-/

namespace Verif

/-- `ROOT_OF_UNITY`. Models halo2curves/src/bn256/fr.rs lines 77-82 (limbs least significant
first). -/
def rootOfUnity : Fr := ((0x03ddb9f5166d18b798865ea93dd31f743215cf6dd39329c8d34f1ed960c37c9c : Nat) : Fr)

/-- `S`. Models halo2curves/src/bn256/fr.rs line 71. -/
def twoAdicity : Nat := 28

/-- `DELTA`. Models halo2curves/src/bn256/fr.rs lines 104-109. -/
def deltaFr : Fr := ((0x09226b6e22c6f0ca64ec26aad4c86e715b5f898e5e963f25870e56bbe533e9a2 : Nat) : Fr)

/-- `ZETA`. Models halo2curves/src/bn256/fr.rs lines 112-117. -/
def zetaFr : Fr := ((0x30644e72e131a029048b6e193fd84104cc37a73fec2bc5e9b8ca0b2d36636f23 : Nat) : Fr)

/-- `EvaluationDomain`. Models halo2_proofs/src/poly/domain.rs lines 19-35. -/
structure Domain where
  n : Nat
  k : Nat
  extendedK : Nat
  omega : Fr
  omegaInv : Fr
  extendedOmega : Fr
  extendedOmegaInv : Fr
  gCoset : Fr
  gCosetInv : Fr
  quotientPolyDegree : Nat
  ifftDivisor : Fr
  extendedIfftDivisor : Fr
  tEvaluations : List Fr
  barycentricWeight : Fr
  deriving DecidableEq

namespace Domain

/-- `1 << k` for a 64-bit one: a shift by 64 or more panics with overflow checks and is taken modulo
64 without them. The shifts of domain.rs lines 45, 51, 85, 99, 110 and 111. -/
def shl64 (checks : Bool) (k : Nat) : Except Panic Nat :=
  if checks && decide (64 ≤ k) then .error .overflow else .ok (2 ^ (k % 64))

/-- A product of 64-bit words. Line 51 of domain.rs. -/
def mul64 (checks : Bool) (a b : Nat) : Except Panic Nat :=
  if checks && decide (2 ^ 64 ≤ a * b) then .error .overflow else .ok (a * b % 2 ^ 64)

/-- The loop that finds `extended_k`. Models domain.rs lines 50-53; the first argument bounds the
number of iterations. -/
def extend (checks : Bool) (limit : Nat) : Nat → Nat → Except Panic Nat
  | 0, _ => .error .hang
  | fuel + 1, e => do
    let s ← shl64 checks e
    if s < limit then
      if checks && decide (2 ^ 32 ≤ e + 1) then .error .overflow
      else extend checks limit fuel ((e + 1) % 2 ^ 32)
    else .ok e

/-- `x` squared `m` times. Models the loops of domain.rs lines 60-62 and 72-74. -/
def squares (x : Fr) : Nat → Fr
  | 0 => x
  | m + 1 => squares (x * x) m

/-- The loop that lists the evaluations of `X^n`. Models domain.rs lines 90-98; the first argument
bounds the number of iterations. -/
def powersOf (step orig : Fr) : Nat → Fr → Except Panic (List Fr)
  | 0, _ => .error .hang
  | fuel + 1, cur =>
    if cur * step = orig then .ok [cur]
    else (powersOf step orig fuel (cur * step)).map (cur :: ·)

/-- `EvaluationDomain::new`. Models domain.rs lines 40-145. `checks` says whether the code was
compiled with overflow checks, `fuel` bounds the number of iterations of the two loops. Batch
inversion leaves zeros as they are, which agrees with `0⁻¹ = 0`. -/
def new (checks : Bool) (fuel j k : Nat) : Except Panic Domain := do
  if checks && decide (j = 0) then .error .overflow else
  let q := (j + 2 ^ 32 - 1) % 2 ^ 32
  let n ← shl64 checks k
  let limit ← mul64 checks n q
  let ek ← extend checks limit fuel k
  let extendedOmega := squares rootOfUnity (twoAdicity - ek)
  let omega := squares extendedOmega (ek - k)
  let ts ← powersOf (extendedOmega ^ n) (zetaFr ^ n) fuel (zetaFr ^ n)
  let len ← shl64 checks (ek - k)
  if ts.length ≠ len then .error .assert else
  let n' ← shl64 checks k
  let en ← shl64 checks ek
  .ok { n := n, k := k, extendedK := ek, omega := omega, omegaInv := omega⁻¹,
        extendedOmega := extendedOmega, extendedOmegaInv := extendedOmega⁻¹,
        gCoset := zetaFr, gCosetInv := zetaFr * zetaFr, quotientPolyDegree := q,
        ifftDivisor := ((n' : Nat) : Fr)⁻¹, extendedIfftDivisor := ((en : Nat) : Fr)⁻¹,
        tEvaluations := ts.map fun t => (t - 1)⁻¹,
        barycentricWeight := ((n : Nat) : Fr)⁻¹ }

/-- `rotate_omega`. Models domain.rs lines 511-522. -/
def rotateOmega (d : Domain) (value : Fr) (rotation : Int) : Fr :=
  if rotation ≥ 0 then value * d.omega ^ rotation.toNat
  else value * d.omegaInv ^ rotation.natAbs

/-- `l_i_range`. Models domain.rs lines 550-575. -/
def lIRange (d : Domain) (x xn : Fr) (rotations : List Int) : List Fr :=
  let results := rotations.map fun r => (x - d.rotateOmega 1 r)⁻¹
  let common := (xn - 1) * d.barycentricWeight
  (rotations.zip results).map fun p => d.rotateOmega (p.2 * common) p.1

end Domain

end Verif
