import Verif.Model.Domain
import Mathlib.Algebra.Module.Basic

/-!
Polynomial arithmetic: `halo2_proofs/src/arithmetic.rs` and the part of
`halo2_proofs/src/poly/domain.rs` that moves polynomials between their forms.

A slice is a list at the interfaces. Inside the transform it is the function from its indices (no
index outside the slice is reached, so the value there does not matter).
-/

namespace Verif

variable {M : Type} [AddCommGroup M] [Module Fr M]

/-- `bitreverse`; the last argument is the accumulator `r`. Models
halo2_proofs/src/arithmetic.rs lines 156-163. Simplification: no bit is shifted out of `r`, which
holds for at most 64 bits. -/
def bitreverse : Nat → Nat → Nat → Nat
  | 0, _, r => r
  | l + 1, n, r => bitreverse l (n / 2) (2 * r + n % 2)

/-- `a.swap(i, j)`. Models the call in halo2_proofs/src/arithmetic.rs line 172. -/
def swapAt (a : Nat → M) (i j : Nat) : Nat → M :=
  Function.update (Function.update a i (a j)) j (a i)

/-- The reordering loop. Models halo2_proofs/src/arithmetic.rs lines 169-174. -/
def reorder (logN n : Nat) (a : Nat → M) : Nat → M :=
  (List.range n).foldl (fun a k =>
    let rk := bitreverse logN k 0
    if k < rk then swapAt a rk k else a) a

/-- One step of the innermost loop. Models halo2_proofs/src/arithmetic.rs lines 184-189. -/
def butterfly (wm : Fr) (m k : Nat) (s : Fr × (Nat → M)) (j : Nat) : Fr × (Nat → M) :=
  let t := s.1 • s.2 (k + j + m)
  let a := Function.update s.2 (k + j + m) (s.2 (k + j) - t)
  (s.1 * wm, Function.update a (k + j) (a (k + j) + t))

/-- The innermost loop. Models halo2_proofs/src/arithmetic.rs lines 182-190. -/
def block (wm : Fr) (m k : Nat) (a : Nat → M) : Nat → M :=
  ((List.range m).foldl (butterfly wm m k) (1, a)).2

/-- One round: the loop over the blocks. Models halo2_proofs/src/arithmetic.rs lines 178-193; the
`while` loop runs for `k = 0, 2m, 4m, …` below `n`. -/
def round (omega : Fr) (n m : Nat) (a : Nat → M) : Nat → M :=
  (List.range ((n + 2 * m - 1) / (2 * m))).foldl
    (fun a b => block (omega ^ (n / (2 * m))) m (2 * m * b) a) a

/-- `best_fft`. Models halo2_proofs/src/arithmetic.rs lines 152-154 and 165-197. The length is
truncated to 32 bits, as in the code. `1 << log_n` overflows from 32 on (without overflow checks it
would wrap; no caller gets there, as domains of that size do not exist). -/
def bestFft (a : List M) (omega : Fr) (logN : Nat) : Except Panic (List M) :=
  let n := a.length % 2 ^ 32
  if 32 ≤ logN then .error .overflow
  else if n ≠ 2 ^ logN then .error .assert
  else
    let s := reorder logN n (fun i => a.getD i 0)
    let s := (List.range logN).foldl (fun s r => round omega n (2 ^ r) s) s
    .ok ((List.range a.length).map s)

/-- `eval_polynomial`. Models halo2_proofs/src/arithmetic.rs lines 353-360. -/
def evalPolynomial (poly : List Fr) (point : Fr) : Fr :=
  poly.reverse.foldl (fun acc coeff => acc * point + coeff) 0

/-- `compute_inner_product`. Models halo2_proofs/src/arithmetic.rs lines 365-374. -/
def computeInnerProduct (a b : List Fr) : Except Panic Fr :=
  if a.length ≠ b.length then .error .assert
  else .ok ((a.zip b).foldl (fun acc p => acc + p.1 * p.2) 0)

/-- The loop of `kate_division`: the coefficients from the highest one down, `tmp`, and the quotient
found so far (lowest coefficient first). Models halo2_proofs/src/arithmetic.rs lines 388-394. -/
def kateLoop (b : Fr) : List Fr → Fr → List Fr → List Fr
  | [], _, q => q
  | r :: rs, tmp, q => kateLoop b rs ((r - tmp) * b) ((r - tmp) :: q)

/-- `kate_division`. Models halo2_proofs/src/arithmetic.rs lines 379-397: the zip of the quotient with
the coefficients ends before the constant coefficient. `a.len() - 1` underflows for the empty
polynomial. -/
def kateDivision (a : List Fr) (b : Fr) : Except Panic (List Fr) :=
  if a.length = 0 then .error .overflow
  else .ok (kateLoop (-b) (a.reverse.take (a.length - 1)) 0 [])

/-- One factor of a Lagrange basis polynomial: `tmp` is multiplied by `denom · (X - xk)`. Models
halo2_proofs/src/arithmetic.rs lines 444-452. -/
def timesFactor (tmp : List Fr) (denom xk : Fr) : List Fr :=
  ((tmp ++ [0]).zip (0 :: tmp)).map fun (p : Fr × Fr) => p.1 * (-denom * xk) + p.2 * denom

/-- The other points, for the point of index `j`. Models halo2_proofs/src/arithmetic.rs lines 422-426
and 439-443. -/
def otherPoints (points : List Fr) (j : Nat) : List Fr :=
  (points.zipIdx.filter fun p => p.2 ≠ j).map (·.1)

/-- `lagrange_interpolate`. Models halo2_proofs/src/arithmetic.rs lines 414-465. With no points,
`points.len() - 1` at line 437 is not reached, as the loops do not run. Batch inversion leaves zeros
as they are, as `0⁻¹ = 0` does. The two assertions on lengths, lines 455 and 456, hold by
construction and are not modelled. -/
def lagrangeInterpolate (points evals : List Fr) : Except Panic (List Fr) :=
  if points.length ≠ evals.length then .error .assert
  else if points.length = 1 then .ok [evals.getD 0 0]
  else
    let polys := points.zipIdx.map fun p =>
      (otherPoints points p.2).foldl (fun tmp xk => timesFactor tmp (p.1 - xk)⁻¹ xk) [1]
    .ok ((polys.zip evals).foldl (fun final p =>
      (final.zip p.1).map fun c => c.1 + c.2 * p.2) (List.replicate points.length 0))

namespace Domain

/-- `ifft`. Models halo2_proofs/src/poly/domain.rs lines 468-476. -/
def ifft (a : List M) (omegaInv : Fr) (logN : Nat) (divisor : Fr) : Except Panic (List M) :=
  (bestFft a omegaInv logN).map fun l => l.map fun x => divisor • x

/-- `lagrange_to_coeff`. Models domain.rs lines 253-263. -/
def lagrangeToCoeff (d : Domain) (a : List M) : Except Panic (List M) :=
  if a.length ≠ 2 ^ (d.k % 64) then .error .assert
  else ifft a d.omegaInv d.k d.ifftDivisor

/-- `distribute_powers_zeta`. Models domain.rs lines 437-453. -/
def distributePowersZeta (d : Domain) (a : List M) (intoCoset : Bool) : List M :=
  a.mapIdx fun i x =>
    if i % 3 = 0 then x
    else if i % 3 = 1 then (if intoCoset then d.gCoset else d.gCosetInv) • x
    else (if intoCoset then d.gCosetInv else d.gCoset) • x

/-- `distribute_powers`. Models domain.rs lines 458-466. -/
def distributePowers (a : List M) (c : Fr) : List M :=
  a.mapIdx fun i x => c ^ i • x

/-- `extended_len`. Models domain.rs lines 489-491. -/
def extendedLen (d : Domain) : Nat := 2 ^ (d.extendedK % 64)

/-- `resize` with zeros. Models the call in domain.rs line 274. -/
def resize (a : List M) (len : Nat) : List M := a.take len ++ List.replicate (len - a.length) 0

/-- `coeff_to_extended`. Models domain.rs lines 267-281. -/
def coeffToExtended (d : Domain) (a : List M) : Except Panic (List M) :=
  if a.length ≠ 2 ^ (d.k % 64) then .error .assert
  else bestFft (resize (d.distributePowersZeta a true) d.extendedLen) d.extendedOmega d.extendedK

/-- `coeff_to_extended_part`. Models domain.rs lines 342-356. -/
def coeffToExtendedPart (d : Domain) (a : List M) (factor : Fr) : Except Panic (List M) :=
  if a.length ≠ 2 ^ (d.k % 64) then .error .assert
  else bestFft (distributePowers a (d.gCoset * factor)) d.omega d.k

/-- `coeff_to_extended_parts`. Models domain.rs lines 291-306. -/
def coeffToExtendedParts (d : Domain) (a : List M) : Except Panic (List (List M)) :=
  if a.length ≠ 2 ^ (d.k % 64) then .error .assert
  else (List.range (d.extendedLen / 2 ^ (d.k % 64))).mapM fun i =>
    d.coeffToExtendedPart a (d.extendedOmega ^ i)

/-- `extended_from_lagrange_vec`. Models domain.rs lines 172-194: the values are transposed and
flattened. Simplification: every part must have `n` values; the code asserts it of the first part
only, and a shorter part would leave zeros. -/
def extendedFromLagrangeVec (d : Domain) (values : List (List M)) : Except Panic (List M) :=
  if values.length ≠ d.extendedLen / 2 ^ (d.k % 64) then .error .assert
  else if values.any (fun v => v.length ≠ d.n) then .error .assert
  else .ok ((List.range d.n).flatMap fun row => values.map fun v => v.getD row 0)

/-- `extended_to_coeff`. Models domain.rs lines 383-405. The product of line 402 is taken modulo
`2^64`. -/
def extendedToCoeff (d : Domain) (a : List M) : Except Panic (List M) :=
  if a.length ≠ d.extendedLen then .error .assert
  else (ifft a d.extendedOmegaInv d.extendedK d.extendedIfftDivisor).map fun l =>
    (d.distributePowersZeta l false).take (d.n * d.quotientPolyDegree % 2 ^ 64)

/-- `divide_by_vanishing_poly`. Models domain.rs lines 409-428. An empty table of evaluations would
be a division by zero. -/
def divideByVanishingPoly (d : Domain) (a : List M) : Except Panic (List M) :=
  if a.length ≠ d.extendedLen then .error .assert
  else if d.tEvaluations.length = 0 then .error .overflow
  else .ok (a.mapIdx fun i x => d.tEvaluations.getD (i % d.tEvaluations.length) 0 • x)

end Domain

end Verif
