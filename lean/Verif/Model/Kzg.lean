import Verif.Model.Arith
import Verif.Model.Bytes

/-!
Multi-exponentiation and the KZG parameters as the prover makes them:
`halo2_proofs/src/arithmetic.rs` and `halo2_proofs/src/poly/kzg/commitment.rs`.

The group of the curve is any module over `Fr` (the curve of bn256 is one: its order is the modulus
of `Fr`); affine and projective coordinates of a point are the same element.
-/

namespace Verif

variable {M : Type} [AddCommGroup M] [Module Fr M]

/-- `TWO_INV`. Models halo2curves/src/bn256/fr.rs lines 85-90. -/
def twoInvFr : Fr := ((0x183227397098d014dc2822db40c0ac2e9419f4243cdcb848a1f0fac9f8000001 : Nat) : Fr)

/-- `ROOT_OF_UNITY_INV`. Models halo2curves/src/bn256/fr.rs lines 93-98. -/
def rootOfUnityInv : Fr := ((0x048127174daabc261bbe587180f34361b22625f59115aba70ed3e50a414e6dba : Nat) : Fr)

/-- `get_at`: `c` bits of a number given by its bytes. Models halo2_proofs/src/arithmetic.rs lines
25-43: eight bytes from byte `skip_bytes` on, as many as there are. -/
def getAt (segment c : Nat) (bytes : List UInt8) : Nat :=
  let skipBits := segment * c
  let skipBytes := skipBits / 8
  if 32 ≤ skipBytes then 0
  else leNat ((bytes.drop skipBytes).take 8) / 2 ^ (skipBits - skipBytes * 8) % 2 ^ c

/-- The size of a window. Models halo2_proofs/src/arithmetic.rs lines 17-23. -/
def windowSize (n : Nat) : Nat := if n < 4 then 1 else if n < 32 then 3 else 4

/-- Adding the points to their buckets. Models halo2_proofs/src/arithmetic.rs lines 83-90. The three
forms of a bucket (lines 52-80) are the point they stand for, `None` being zero. -/
def fillBuckets (segment c : Nat) (terms : List (List UInt8 × M)) : List M :=
  terms.foldl (fun buckets t =>
    let coeff := getAt segment c t.1
    if coeff ≠ 0 then buckets.set (coeff - 1) (buckets.getD (coeff - 1) 0 + t.2) else buckets)
    (List.replicate (2 ^ c - 1) 0)

/-- Summation by parts. Models halo2_proofs/src/arithmetic.rs lines 96-100. -/
def sumBuckets (buckets : List M) (acc : M) : M :=
  (buckets.reverse.foldl (fun (s : M × M) b => (s.1 + b, s.2 + (s.1 + b))) (0, acc)).2

/-- `multiexp_serial`. Models halo2_proofs/src/arithmetic.rs lines 14-102; `to_repr` gives the 32
bytes of the canonical representative, least significant first. -/
def multiexpSerial (coeffs : List Fr) (bases : List M) (acc : M) : M :=
  let bytes := coeffs.map fun c => leBytes 32 c.val
  let c := windowSize bases.length
  (List.range (256 / c + 1)).reverse.foldl
    (fun acc segment => sumBuckets (fillBuckets segment c (bytes.zip bases)) (2 ^ c • acc)) acc

/-- `best_multiexp`. Models halo2_proofs/src/arithmetic.rs lines 133-139. -/
def bestMultiexp (coeffs : List Fr) (bases : List M) : Except Panic M :=
  if coeffs.length ≠ bases.length then .error .assert else .ok (multiexpSerial coeffs bases 0)

/-- `g_to_lagrange`. Models halo2_proofs/src/arithmetic.rs lines 326-350. -/
def gToLagrange (g : List M) (k : Nat) : Except Panic (List M) :=
  (bestFft g (Domain.squares rootOfUnityInv (twoAdicity - k)) k).map fun l =>
    l.map fun x => twoInvFr ^ k • x

/-- The parameters the prover works with, in groups `M` and `M₂`. Models
halo2_proofs/src/poly/kzg/commitment.rs lines 24-31. -/
structure Srs (M M₂ : Type) where
  k : Nat
  n : Nat
  g : List M
  gLagrange : List M
  g2 : M₂
  sG2 : M₂

namespace Srs

variable {M₂ : Type} [AddCommGroup M₂] [Module Fr M₂]

/-- `unsafe_setup_with_s`; `g1` and `g2` are the generators. Models
halo2_proofs/src/poly/kzg/commitment.rs lines 76-143. -/
def setup (g1 : M) (g2 : M₂) (k : Nat) (s : Fr) : Except Panic (Srs M M₂) :=
  if ¬ k ≤ twoAdicity then .error .assert
  else
    let n := 2 ^ k
    if rootOfUnityInv = 0 then .error .unwrap else
    let root := Domain.squares rootOfUnityInv⁻¹ (twoAdicity - k)
    if ((n : Nat) : Fr) = 0 then .error .unwrap else
    let multiplier := (s ^ n - 1) * ((n : Nat) : Fr)⁻¹
    if (List.range n).any (fun i => decide (s - root ^ i = 0)) then .error .unwrap
    else .ok
      { k := k, n := n
        g := (List.range n).map fun i => s ^ i • g1
        gLagrange := (List.range n).map fun i => (multiplier * root ^ i * (s - root ^ i)⁻¹) • g1
        g2 := g2, sG2 := s • g2 }

/-- `commit_lagrange`; the blinding factor is ignored by the code. Models
halo2_proofs/src/poly/kzg/commitment.rs lines 294-305. -/
def commitLagrange (p : Srs M M₂) (poly : List Fr) : Except Panic M :=
  if p.gLagrange.length < poly.length then .error .assert
  else bestMultiexp poly (p.gLagrange.take poly.length)

/-- `commit`. Models halo2_proofs/src/poly/kzg/commitment.rs lines 340-347. -/
def commit (p : Srs M M₂) (poly : List Fr) : Except Panic M :=
  if p.g.length < poly.length then .error .assert
  else bestMultiexp poly (p.g.take poly.length)

/-- `downsize`. Models halo2_proofs/src/poly/kzg/commitment.rs lines 272-280. -/
def downsize (p : Srs M M₂) (k : Nat) : Except Panic (Srs M M₂) :=
  if ¬ k ≤ p.k then .error .assert
  else do
    let g := p.g.take (2 ^ k)
    let gl ← gToLagrange g k
    .ok { p with k := k, n := 2 ^ k, g := g, gLagrange := gl }

end Srs

end Verif
