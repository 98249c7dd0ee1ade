import Verif.Model.PlonkProver
import Verif.Spec.Piop

/-! What an honest run of the prover is about. -/

namespace Verif.Spec

open Plonk PlonkProver

/-- The table of a prover: the values of the key, the witness with ones in the last row, and the
public inputs followed by zeros. -/
def tableOf (n : Nat) (fixed witness instances : List (List Fr)) (user : List Fr) : Grid where
  advice c r := if r + 1 = n then 1 else (witness.getD c []).getD r 0
  fixed c r := (fixed.getD c []).getD r 0
  instance_ c r := (instances.getD c []).getD r 0
  selector _ _ := false
  challenge i := user.getD i 0

/-- The random values are as many as the code draws. -/
structure EnoughBlinds (cs : CS) (b : Blinds) : Prop where
  permuted : b.permuted.length = cs.lookups.length
  permutedRows : ∀ p ∈ b.permuted, p.1.length = cs.blindingFactors + 1 ∧ p.2.length = cs.blindingFactors + 1
  products : b.products.length = (chunks (cs.degree - 2) cs.permutation).length
  productRows : ∀ p ∈ b.products, p.length = cs.blindingFactors
  lookups : b.lookups.length = cs.lookups.length
  lookupRows : ∀ p ∈ b.lookups, p.length = cs.blindingFactors

/-- A proving key for `2^k` rows: the polynomials interpolate the columns. -/
structure ProvingKeyFor (pk : ProvingKey) (k : Nat) : Prop where
  domain : IsDomain pk.domain pk.cs.degree k
  coset : pk.domain.gCoset = zetaFr
  l0 : pk.l0.length = 2 ^ k ∧ ∀ r < 2 ^ k, polyAt pk.l0 (pk.domain.omega ^ r) = if r = 0 then 1 else 0
  lLast : pk.lLast.length = 2 ^ k ∧ ∀ r < 2 ^ k, polyAt pk.lLast (pk.domain.omega ^ r) =
    if r = pk.cs.usableRows (2 ^ k) then 1 else 0
  lActive : pk.lActive.length = 2 ^ k ∧ ∀ r < 2 ^ k, polyAt pk.lActive (pk.domain.omega ^ r) =
    if r < pk.cs.usableRows (2 ^ k) then 1 else 0
  fixed : pk.fixedValues.length = pk.cs.numFixed ∧ pk.fixedPolys.length = pk.cs.numFixed ∧
    ∀ c < pk.cs.numFixed, (pk.fixedValues.getD c []).length = 2 ^ k ∧ (pk.fixedPolys.getD c []).length = 2 ^ k ∧
      ∀ r < 2 ^ k, polyAt (pk.fixedPolys.getD c []) (pk.domain.omega ^ r) = (pk.fixedValues.getD c []).getD r 0
  sigma : pk.sigmaValues.length = pk.cs.permutation.length ∧ pk.sigmaPolys.length = pk.cs.permutation.length ∧
    ∀ c < pk.cs.permutation.length, (pk.sigmaValues.getD c []).length = 2 ^ k ∧
      (pk.sigmaPolys.getD c []).length = 2 ^ k ∧
      ∀ r < 2 ^ k, polyAt (pk.sigmaPolys.getD c []) (pk.domain.omega ^ r) = (pk.sigmaValues.getD c []).getD r 0

/-- The key of the verifier, with polynomials for commitments. -/
def verifyingKeyOf (pk : ProvingKey) : Key Poly := ⟨pk.domain, pk.cs, pk.fixedPolys, pk.sigmaPolys⟩

/-- The prover ends with commitments and scalars of the right shape, and with these the verifier ends
with queries that are all true. -/
def Succeeds (key : Key Poly) (n : Nat) (instances : List (List Fr)) (ch : Challenges)
    (result : Except Stop (Commitments Poly × Evals)) : Prop :=
  ∃ com e queries, result = .ok (com, e) ∧ Shaped key com e ∧ claims key n instances com ch e = .ok queries ∧
    ∀ q ∈ queries, Holds q

end Verif.Spec
