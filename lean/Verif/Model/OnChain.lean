import Verif.Model.Keygen
import Verif.Model.Kzg
import Verif.Model.Transcript
import Verif.Model.ProverTranscript

/-!
The pieces put together: the witnesses that `ckb_bf_prover/src/main.rs` makes and the program
`ckb_bf_verifier/src/main.rs` with the key reader and the proof verification it calls.
-/

namespace Verif

open Plonk Keygen

/-- Points of a group and their stored coordinates; coordinates that are not on the curve are those of
no point. (The fields `x`, `y` of halo2curves/src/derive/curve.rs lines 164-168.) -/
structure RawForm (G Raw : Type) where
  raw : G → Raw
  point : Raw → Option G

/-- The secret of the setup. Models ckb_bf_base/src/lib.rs line 16. -/
def GOD_PRIVATE_KEY : Fr := 42

section
variable {G G₂ : Type}

/-- The key as it is written: `keygen_vk` with the selector assignments it keeps. Models
halo2_proofs/src/plonk/keygen.rs lines 205-261. (`assemble` compresses the selectors, too; the code does
this once.) -/
def keygenRaw (r1 : RawForm G G1Raw) (commit : List Fr → Except Panic G) (checks : Bool) (fuel fuel' k : Nat)
    (mx : Matrix) (ch : Nat → Fr) (inst : Nat → List Fr) : Except Panic (Except SynthErr VerifyingKey) := do
  let domain ← Domain.new checks fuel mainCS.degree k
  match synthesize (2 ^ k) mx ch inst with
  | .error e => return .error e
  | .ok a =>
    match ← assemble commit fuel' mainCS (2 ^ k) domain a with
    | .error e => return .error e
    | .ok key => do
      let (c, _, as) ← mainCS.compressSelectors (activations mainCS (2 ^ k) a)
      return .ok ⟨key.domain, key.fixed.map r1.raw, key.sigma.map r1.raw, c, as.map (WAssignment.ofAssignment c.cs)⟩

/-- The parameters as they are written. -/
def Srs.toRaw (r1 : RawForm G G1Raw) (r2 : RawForm G₂ G2Raw) (srs : Srs G G₂) : KzgParams :=
  ⟨srs.k, srs.n, srs.g.map r1.raw, srs.gLagrange.map r1.raw, r2.raw srs.g2, r2.raw srs.sG2⟩

/-- The key that the verifier computes with, if all its points are on the curve. Models
halo2_proofs/src/plonk.rs lines 127-133. -/
def VerifyingKey.toKey (r1 : RawForm G G1Raw) (vk : VerifyingKey) : Option (Key G) := do
  let fixed ← vk.fixedCommitments.mapM r1.point
  let sigma ← vk.permutation.mapM r1.point
  some ⟨vk.domain, vk.cs.cs, fixed, sigma⟩

/-- The parameters that the verifier computes with, if the points it uses are on their curves. -/
def KzgParams.toVerifier (r1 : RawForm G G1Raw) (r2 : RawForm G₂ G2Raw) (p : KzgParams) : Option (VerifierParams G G₂) := do
  let g ← p.g[0]?
  let g0 ← r1.point g
  let g2 ← r2.point p.g2
  let sG2 ← r2.point p.sG2
  some ⟨p.n, g0, g2, sG2⟩

variable {GT : Type} [AddCommGroup G] [Module Fr G]
variable [AddCommGroup G₂] [Module Fr G₂] [AddCommGroup GT] [Module Fr GT] [DecidableEq GT]

/-- What the verifier is built from. `repr` is the scalar the key is hashed to (halo2_proofs/src/plonk.rs
lines 180-191; a hash of the key). `junk` is what `verify_proof` does when points of the parameters or of
the key are not on the curve: this is not modelled. -/
structure OnChain (G G₂ GT : Type) [AddCommGroup G] [Module Fr G] [AddCommGroup G₂] [Module Fr G₂]
    [AddCommGroup GT] [Module Fr GT] where
  codec : Codec G
  hash : Hash
  pairing : G →ₗ[Fr] G₂ →ₗ[Fr] GT
  r1 : RawForm G G1Raw
  r2 : RawForm G₂ G2Raw
  repr : VerifyingKey → Fr
  junk : KzgParams → VerifyingKey → List (List Fr) → List UInt8 → Except Panic Bool

/-- `verify_proof` as the on-chain program calls it: `false` is an error. Models
ckb_bf_verifier/src/main.rs lines 123-136. -/
def OnChain.verify (s : OnChain G G₂ GT) (p : KzgParams) (vk : VerifyingKey) (instances : List (List Fr))
    (proof : List UInt8) : Except Panic Bool :=
  match p.toVerifier s.r1 s.r2, vk.toKey s.r1 with
  | some params, some key =>
    match verifyProof s.codec s.hash s.pairing params key (s.repr vk) instances proof with
    | .ok () => .ok true
    | .error (.error _) => .ok false
    | .error (.panic e) => .error e
  | _, _ => s.junk p vk instances proof

/-- The key as the on-chain program reads it; bytes after it are ignored. Models
ckb_bf_verifier/src/main.rs lines 111-121. -/
def readKey (checks : Bool) (fuel : Nat) (b : List UInt8) : Except Panic (Option VerifyingKey) := do
  let r ← VerifyingKey.read checks fuel mainCS b
  return r.map Prod.fst

/-- The on-chain program, the parts put together. Models ckb_bf_verifier/src/main.rs lines 31-141; it is
built without overflow checks. -/
def OnChain.program (s : OnChain G G₂ GT) (fuel : Nat) (ws : List (List UInt8)) : Except Panic Int :=
  programEntry false (readKey false fuel) s.verify ws

open PlonkProver in
/-- The witnesses the prover makes from a trace, if all goes well. Models
ckb_bf_prover/src/main.rs lines 22-126 without the check of the proof (lines 88-110); `checks` is whether
the prover is built with overflow checks; `blinds` are the random values. Commitments are made with
`srs`, which is `unsafe_setup_with_s`. -/
def OnChain.witnesses (s : OnChain G G₂ GT) (checks : Bool) (fuel fuel' k : Nat) (srs : Srs G G₂) (mx : Matrix)
    (words : List Nat) (input : List UInt8) (blinds : Blinds) : Option (List (List UInt8)) :=
  let inst := publicInputs (words.map fun (w : Nat) => (w : Fr)) (easygen input)
  match keygenRaw s.r1 srs.commitLagrange checks fuel fuel' k mx (fun _ => 0) inst,
    keygenPk checks fuel fuel' k mx (fun _ => 0) inst, (srs.toRaw s.r1 s.r2).shrink SHRINK_K with
  | .ok (.ok vk), .ok (.ok pk), .ok params =>
    match prove checks s.codec s.hash srs pk (s.repr vk) [inst 0, inst 1] (circuitSynth k mx inst) blinds with
    | .ok proof => some (txWitnesses params.write vk.write proof (codeBytes words) input)
    | .error _ => none
  | _, _, _ => none

end

end Verif
