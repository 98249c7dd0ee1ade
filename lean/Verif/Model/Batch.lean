import Verif.Model.Transcript

/-!
Verifying several proofs at once: `AccumulatorStrategy` of `halo2_proofs/src/poly/kzg/strategy.rs`, with
`plonk/verifier.rs` and `VerifierSHPLONK`.
-/

namespace Verif

open Plonk Shplonk Transcript

variable {G G₂ GT : Type} [AddCommGroup G] [Module Fr G]
variable [AddCommGroup G₂] [Module Fr G₂] [AddCommGroup GT] [Module Fr GT] [DecidableEq GT]

/-- A proof with what it is about: the arguments of a call of `verify_proof`. -/
structure Item (G : Type) where
  key : Key G
  repr : Fr
  instances : List (List Fr)
  proof : List UInt8

/-- `DualMSM`. Models halo2_proofs/src/poly/kzg/msm.rs lines 121-127. -/
structure Dual (G : Type) where
  left : List (Fr × G) := []
  right : List (Fr × G) := []

/-- `DualMSM::scale`. Models halo2_proofs/src/poly/kzg/msm.rs lines 139-143. -/
def Dual.scale (d : Dual G) (c : Fr) : Dual G := ⟨Shplonk.scale d.left c, Shplonk.scale d.right c⟩

open Verify in
/-- `verify_proof` with `AccumulatorStrategy` and `VerifierSHPLONK`: the accumulator is scaled by the factor, and the
terms of the proof are appended. Models halo2_proofs/src/poly/kzg/strategy.rs lines 103-115 with plonk/verifier.rs lines 28-400 as in
`verifyProof`, and poly/kzg/multiopen/shplonk/verifier.rs lines 138-144. In the code the factor is `Scalar::random` of
`get_rng()` (halo2_proofs/src/lib.rs lines 60-64), a generator that is made anew from the seed 42 in each call: the factor is
a constant. -/
def accumulate (codec : Codec G) (hash : Hash) (params : VerifierParams G G₂) (factor : Fr) (acc : Dual G) (i : Item G) :
    Except Verify.Stop (Dual G) := do
  let acc := acc.scale factor
  let (com, ch, t) ← readCommitments codec hash i.key i.repr i.instances i.proof
  let (e, t) ← readEvals i.key com t
  let queries ← total (claims (Ref.ofKey i.key) params.n i.instances (Ref.ofCommitments com) ch e)
  let (y, v, h1, u, h2, _) ← readOpening codec hash t
  let (left, right) ← total (verify params.g0 (queries.map Ref.toClaim) y v h1 u h2)
  return ⟨acc.left ++ left, acc.right ++ right⟩

/-- The proofs one after the other. -/
def accumulateAll (codec : Codec G) (hash : Hash) (params : VerifierParams G G₂) (factor : Fr) :
    Dual G → List (Item G) → Except Verify.Stop (Dual G)
  | acc, [] => .ok acc
  | acc, i :: rest => do
    let acc ← accumulate codec hash params factor acc i
    accumulateAll codec hash params factor acc rest

open Verify in
/-- A batch of proofs: `AccumulatorStrategy::new`, `verify_proof` for each of them, and `finalize`. Models
halo2_proofs/src/poly/kzg/strategy.rs lines 54-60 and 117-119. -/
def verifyBatch (codec : Codec G) (hash : Hash) (pairing : G →ₗ[Fr] G₂ →ₗ[Fr] GT) (params : VerifierParams G G₂)
    (factor : Fr) (items : List (Item G)) : Except Verify.Stop Bool := do
  let acc ← accumulateAll codec hash params factor {} items
  total (check pairing params.g2 params.sG2 acc.left acc.right)

end Verif
