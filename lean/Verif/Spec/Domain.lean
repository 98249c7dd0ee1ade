import Verif.Model.Domain
import Mathlib.Algebra.BigOperators.Fin
import Mathlib.RingTheory.RootsOfUnity.PrimitiveRoots

/-!
What an evaluation domain must be, and the value of a polynomial: written without reference to how
the code computes them.
-/

namespace Verif

variable {M : Type} [AddCommGroup M] [Module Fr M]

/-- The value at `x` of the polynomial with coefficients `c`, the constant one first: `Σ xⁱ cᵢ`. -/
def polyAt (c : List M) (x : Fr) : M := ∑ i : Fin c.length, x ^ i.val • c.get i

/-- `d` is an evaluation domain with `2^k` rows for constraints of degree `j`: the rows are the powers
of a root of unity of exact order `2^k`; the extended domain is the least power of two that holds the
quotient, and a root of exact order that size; both roots are related; the coset it is shifted to
does not meet the roots of `X^n - 1`, and the table holds the inverses of `X^n - 1` there. -/
structure IsDomain (d : Domain) (j k : Nat) : Prop where
  rows : d.n = 2 ^ k
  logRows : d.k = k
  quotient : d.quotientPolyDegree = j - 1
  extendedLeast : IsLeast {e | k ≤ e ∧ 2 ^ k * (j - 1) ≤ 2 ^ e} d.extendedK
  omega : IsPrimitiveRoot d.omega (2 ^ k)
  extendedOmega : IsPrimitiveRoot d.extendedOmega (2 ^ d.extendedK)
  tower : d.extendedOmega ^ 2 ^ (d.extendedK - k) = d.omega
  omegaInv : d.omega * d.omegaInv = 1
  extendedOmegaInv : d.extendedOmega * d.extendedOmegaInv = 1
  cosetInv : d.gCoset * d.gCosetInv = 1
  cosetOrder : d.gCoset ^ 3 = 1
  coset : ∀ i : Nat, (d.gCoset * d.extendedOmega ^ i) ^ 2 ^ k ≠ 1
  tLength : d.tEvaluations.length = 2 ^ (d.extendedK - k)
  tEvaluations : ∀ (i : Nat) (hi : i < d.tEvaluations.length),
    d.tEvaluations[i] * ((d.gCoset * d.extendedOmega ^ i) ^ 2 ^ k - 1) = 1
  divisor : d.ifftDivisor * (2 ^ k : Nat) = 1
  extendedDivisor : d.extendedIfftDivisor * (2 ^ d.extendedK : Nat) = 1
  weight : d.barycentricWeight * (2 ^ k : Nat) = 1

end Verif
