import Verif.Model.Shplonk
import Verif.Model.Bytes

/-!
The transcript, and the verifier as it reads a proof: `halo2_proofs/src/transcript.rs`,
`halo2_proofs/src/plonk/verifier.rs` with the reading parts of `plonk/permutation/verifier.rs`,
`plonk/lookup/verifier.rs`, `plonk/vanishing/verifier.rs`, and
`poly/kzg/multiopen/shplonk/verifier.rs`.

The hash function is any function from byte strings to byte strings (in the code: Blake2b with 64 bytes
of output and the personalisation "Halo2-Transcript"). The group of the curve is any module over `Fr`,
its encoding any `Codec`.
-/

namespace Verif

open Plonk Shplonk

/-- The encoding of points: the compressed form, and the representatives of the coordinates (`none` at
infinity). Stands for `GroupEncoding` and `CurveAffine::coordinates` of
halo2curves/src/derive/curve.rs. -/
structure Codec (G : Type) where
  toBytes : G → List UInt8
  fromBytes : List UInt8 → Option G
  coords : G → Option (List UInt8 × List UInt8)

/-- The hash function. -/
abbrev Hash := List UInt8 → List UInt8

namespace Transcript

variable {G : Type}

/-- `to_repr` of a scalar: 32 bytes, least significant first. -/
def scalarBytes (x : Fr) : List UInt8 := leBytes 32 x.val

/-- `common_scalar`: what has been absorbed afterwards. Models halo2_proofs/src/transcript.rs lines
225-230 and 376-381. -/
def commonScalar (absorbed : List UInt8) (x : Fr) : List UInt8 := absorbed ++ 2 :: scalarBytes x

/-- `common_point`; `none` is the error for the point at infinity. Models
halo2_proofs/src/transcript.rs lines 214-223 and 365-374. -/
def commonPoint (codec : Codec G) (absorbed : List UInt8) (p : G) : Option (List UInt8) :=
  match codec.coords p with
  | none => none
  | some (x, y) => some (absorbed ++ 1 :: (x ++ y))

/-- `squeeze_challenge_scalar`: the 64 bytes as a number, reduced. Models
halo2_proofs/src/transcript.rs lines 207-212, 358-363 and 473-490 with `from_bytes_wide` of
halo2curves/src/derive/field.rs lines 307-318; going through the representative and back changes
nothing. -/
def squeeze (hash : Hash) (absorbed : List UInt8) : Fr × List UInt8 :=
  (((leNat (hash (absorbed ++ [0])) : Nat) : Fr), absorbed ++ [0])

/-- `Blake2bRead`: what has been absorbed, and what is left of the proof. Models
halo2_proofs/src/transcript.rs lines 104-110. -/
structure Reader where
  absorbed : List UInt8
  input : List UInt8
  deriving DecidableEq

/-- `read_point`. Models halo2_proofs/src/transcript.rs lines 152-160. -/
def readPoint (codec : Codec G) (t : Reader) : Option (G × Reader) := do
  let (bytes, rest) ← readExact 32 t.input
  let p ← codec.fromBytes bytes
  let absorbed ← commonPoint codec t.absorbed p
  return (p, ⟨absorbed, rest⟩)

/-- `read_scalar`. Models halo2_proofs/src/transcript.rs lines 162-170; `from_repr` takes canonical
representatives only. -/
def readScalar (t : Reader) : Option (Fr × Reader) := do
  let (bytes, rest) ← readExact 32 t.input
  if leNat bytes < P then
    let x : Fr := ((leNat bytes : Nat) : Fr)
    return (x, ⟨commonScalar t.absorbed x, rest⟩)
  else none

/-- `Blake2bWrite`: what has been absorbed, and the proof so far. Models
halo2_proofs/src/transcript.rs lines 266-274. -/
structure Writer where
  absorbed : List UInt8
  output : List UInt8
  deriving DecidableEq

/-- `write_point`; writing to a vector does not fail. Models halo2_proofs/src/transcript.rs lines
327-331. -/
def writePoint (codec : Codec G) (w : Writer) (p : G) : Option Writer := do
  let absorbed ← commonPoint codec w.absorbed p
  return ⟨absorbed, w.output ++ codec.toBytes p⟩

/-- `write_scalar`. Models halo2_proofs/src/transcript.rs lines 332-336. -/
def writeScalar (w : Writer) (x : Fr) : Writer := ⟨commonScalar w.absorbed x, w.output ++ scalarBytes x⟩

end Transcript

/-- `phases()`. Models halo2_proofs/src/plonk/circuit.rs lines 2218-2226. -/
def CS.phases (cs : CS) : List Nat := List.range (cs.advicePhase.foldl max 0 + 1)

namespace Transcript

/-- The challenges of a phase are drawn: `(phase, index)` of the challenges left, and all challenges so
far. Models halo2_proofs/src/plonk/verifier.rs lines 113-117 and plonk/prover.rs lines 411-417. -/
def squeezePhase (hash : Hash) (phase : Nat) :
    List (Nat × Nat) → List Fr → List UInt8 → List Fr × List UInt8
  | [], user, absorbed => (user, absorbed)
  | (p, i) :: rest, user, absorbed =>
    if p = phase then
      let (c, absorbed) := squeeze hash absorbed
      squeezePhase hash phase rest (user.set i c) absorbed
    else squeezePhase hash phase rest user absorbed

end Transcript

namespace Verify

open Transcript

/-- The errors of the verifier. `io` stands for every error of the transcript. -/
inductive Err
  | invalidInstances
  | io
  | opening
  | constraintSystemFailure
  deriving DecidableEq, Repr

/-- A panic, or an error that is returned. -/
inductive Stop
  | panic (p : Panic)
  | error (e : Err)
  deriving DecidableEq, Repr

/-- Code that can only panic. -/
def total {α : Type} : Except Panic α → Except Stop α
  | .ok a => .ok a
  | .error p => .error (.panic p)

/-- `?` on a result of the transcript. -/
def orErr {α : Type} (e : Err) : Option α → Except Stop α
  | some a => .ok a
  | none => .error (.error e)

variable {G : Type}

/-- `read_n_points`, or as many reads one after the other. Models halo2_proofs/src/transcript.rs lines
492-497, plonk/permutation/verifier.rs lines 47-51. -/
def readPoints (codec : Codec G) : Nat → Reader → Except Stop (List G × Reader)
  | 0, t => .ok ([], t)
  | n + 1, t => do
    let (p, t) ← orErr .io (readPoint codec t)
    let (ps, t) ← readPoints codec n t
    return (p :: ps, t)

/-- `read_n_scalars`. Models halo2_proofs/src/transcript.rs lines 499-504. -/
def readScalars : Nat → Reader → Except Stop (List Fr × Reader)
  | 0, t => .ok ([], t)
  | n + 1, t => do
    let (x, t) ← orErr .io (readScalar t)
    let (xs, t) ← readScalars n t
    return (x :: xs, t)

/-- The commitments to the permuted columns. Models halo2_proofs/src/plonk/verifier.rs lines 126-134
with plonk/lookup/verifier.rs lines 38-56. -/
def readPairs (codec : Codec G) : Nat → Reader → Except Stop (List (G × G) × Reader)
  | 0, t => .ok ([], t)
  | n + 1, t => do
    let (a, t) ← orErr .io (readPoint codec t)
    let (s, t) ← orErr .io (readPoint codec t)
    let (ps, t) ← readPairs codec n t
    return ((a, s) :: ps, t)

/-- The advice commitments of a phase: `(phase, index)` of the columns left, and all commitments so
far. Models halo2_proofs/src/plonk/verifier.rs lines 100-112. -/
def readAdvice (codec : Codec G) (phase : Nat) :
    List (Nat × Nat) → List G → Reader → Except Stop (List G × Reader)
  | [], advice, t => .ok (advice, t)
  | (p, i) :: rest, advice, t =>
    if p = phase then do
      let (c, t) ← orErr .io (readPoint codec t)
      readAdvice codec phase rest (advice.set i c) t
    else readAdvice codec phase rest advice t

/-- The phases one after the other. Models halo2_proofs/src/plonk/verifier.rs lines 99-118. -/
def readPhases (codec : Codec G) (hash : Hash) (cs : CS) :
    List Nat → List G → List Fr → Reader → Except Stop (List G × List Fr × Reader)
  | [], advice, user, t => .ok (advice, user, t)
  | phase :: rest, advice, user, t => do
    let (advice, t) ← readAdvice codec phase cs.advicePhase.zipIdx advice t
    let (user, absorbed) := squeezePhase hash phase cs.challengePhase.zipIdx user t.absorbed
    readPhases codec hash cs rest advice user ⟨absorbed, t.input⟩

/-- The last value of a part, if more parts follow. Models
halo2_proofs/src/plonk/permutation/verifier.rs lines 85-89. -/
def readLast (more : Nat) (t : Reader) : Except Stop (Option Fr × Reader) :=
  if 0 < more then do
    let (v, t) ← orErr .io (readScalar t)
    return (some v, t)
  else .ok (none, t)

/-- The scalars of the parts of the permutation argument; the last one has no last value. Models
halo2_proofs/src/plonk/permutation/verifier.rs lines 76-103. -/
def readSets : Nat → Reader → Except Stop (List SetEval × Reader)
  | 0, t => .ok ([], t)
  | n + 1, t => do
    let (product, t) ← orErr .io (readScalar t)
    let (next, t) ← orErr .io (readScalar t)
    let (last, t) ← readLast n t
    let (sets, t) ← readSets n t
    return (⟨product, next, last⟩ :: sets, t)

/-- The scalars of the lookups. Models halo2_proofs/src/plonk/lookup/verifier.rs lines 73-91. -/
def readLookups : Nat → Reader → Except Stop (List LookupEval × Reader)
  | 0, t => .ok ([], t)
  | n + 1, t => do
    let (product, t) ← orErr .io (readScalar t)
    let (next, t) ← orErr .io (readScalar t)
    let (input, t) ← orErr .io (readScalar t)
    let (inputInv, t) ← orErr .io (readScalar t)
    let (table, t) ← orErr .io (readScalar t)
    let (ls, t) ← readLookups n t
    return (⟨product, next, input, inputInv, table⟩ :: ls, t)

/-- `squeeze_challenge_scalar` on a reader. -/
def draw (hash : Hash) (t : Reader) : Fr × Reader :=
  let (c, absorbed) := squeeze hash t.absorbed
  (c, ⟨absorbed, t.input⟩)

/-- The beginning of `verify_proof`: the transcript starts with the key's representative and the public
inputs, then commitments are read and challenges drawn in turn. Unread commitments are points at
infinity. Models halo2_proofs/src/plonk/verifier.rs lines 44-174. -/
def readCommitments [Zero G] (codec : Codec G) (hash : Hash) (key : Key G) (repr : Fr)
    (instances : List (List Fr)) (proof : List UInt8) :
    Except Stop (Commitments G × Challenges × Reader) := do
  if instances.length ≠ key.cs.numInstance then .error (.error .invalidInstances) else
  let t : Reader := ⟨instances.flatten.foldl commonScalar (commonScalar [] repr), proof⟩
  let (advice, user, t) ← readPhases codec hash key.cs key.cs.phases
    (List.replicate key.cs.numAdvice 0) (List.replicate key.cs.numChallenges 0) t
  let (theta, t) := draw hash t
  let (permuted, t) ← readPairs codec key.cs.lookups.length t
  let (beta, t) := draw hash t
  let (gamma, t) := draw hash t
  let (products, t) ← readPoints codec (chunks (key.cs.degree - 2) key.cs.permutation).length t
  let (lookupProducts, t) ← readPoints codec key.cs.lookups.length t
  let (random, t) ← orErr .io (readPoint codec t)
  let (y, t) := draw hash t
  let (pieces, t) ← readPoints codec key.domain.quotientPolyDegree t
  let (x, t) := draw hash t
  return (⟨advice, permuted, products, lookupProducts, random, pieces⟩, ⟨user, theta, beta, gamma, y, x⟩, t)

/-- Then the scalars. Models halo2_proofs/src/plonk/verifier.rs lines 218-241. -/
def readEvals (key : Key G) (com : Commitments G) (t : Reader) : Except Stop (Evals × Reader) := do
  let (advice, t) ← readScalars key.cs.adviceQueries.length t
  let (fixed, t) ← readScalars key.cs.fixedQueries.length t
  let (random, t) ← orErr .io (readScalar t)
  let (sigma, t) ← readScalars key.sigma.length t
  let (sets, t) ← readSets com.products.length t
  let (lookups, t) ← readLookups com.lookupProducts.length t
  return (⟨advice, fixed, random, sigma, sets, lookups⟩, t)

/-- The end of the proof: the challenges and commitments of the opening. Models
halo2_proofs/src/poly/kzg/multiopen/shplonk/verifier.rs lines 73-78. -/
def readOpening (codec : Codec G) (hash : Hash) (t : Reader) :
    Except Stop (Fr × Fr × G × Fr × G × Reader) := do
  let (y, t) := draw hash t
  let (v, t) := draw hash t
  let (h1, t) ← orErr .opening (readPoint codec t)
  let (u, t) := draw hash t
  let (h2, t) ← orErr .opening (readPoint codec t)
  return (y, v, h1, u, h2, t)

end Verify

/-- What a query is about: its address is that of an entry of one of the vectors of commitments (or
polynomials). -/
inductive Ref
  | advice (i : Nat)
  | product (i : Nat)
  | permutedInput (i : Nat)
  | permutedTable (i : Nat)
  | lookupProduct (i : Nat)
  | fixed (i : Nat)
  | sigma (i : Nat)
  | quotient
  | random
  deriving DecidableEq

namespace Ref

variable {C : Type}

/-- The entries of a vector with their references. -/
def number (f : Nat → Ref) (l : List C) : List (Ref × C) := l.zipIdx.map fun (p : C × Nat) => (f p.2, p.1)

/-- The commitments of a key, with references. -/
def ofKey (key : Key C) : Key (Ref × C) :=
  ⟨key.domain, key.cs, number .fixed key.fixed, number .sigma key.sigma⟩

/-- The commitments of a proof, with references. The pieces of the quotient are only used in one sum,
which is an object of its own. -/
def ofCommitments (com : Commitments C) : Commitments (Ref × C) where
  advice := number .advice com.advice
  permuted := com.permuted.zipIdx.map fun (p : (C × C) × Nat) =>
    ((.permutedInput p.2, p.1.1), (.permutedTable p.2, p.1.2))
  products := number .product com.products
  lookupProducts := number .lookupProduct com.lookupProducts
  random := (.random, com.random)
  pieces := com.pieces.map fun c => (.quotient, c)

/-- A query with its reference. -/
def toClaim (q : Query (Ref × C)) : Claim Ref (Committed C) :=
  match q.commitment with
  | .point c => ⟨c.1, .point c.2, q.point, q.value⟩
  | .msm ts => ⟨.quotient, .msm (ts.map fun t => (t.1, t.2.2)), q.point, q.value⟩

end Ref

/-- What the verifier uses of its parameters. Models halo2_proofs/src/poly/kzg/commitment.rs lines
24-31. -/
structure VerifierParams (G G₂ : Type) where
  n : Nat
  g0 : G
  g2 : G₂
  sG2 : G₂

section

variable {G G₂ GT : Type} [AddCommGroup G] [Module Fr G]
variable [AddCommGroup G₂] [Module Fr G₂] [AddCommGroup GT] [Module Fr GT] [DecidableEq GT]

open Verify in
/-- `verify_proof` with `SingleStrategy` and `VerifierSHPLONK`, for one proof; bytes after the end of
the proof are not looked at. Models halo2_proofs/src/plonk/verifier.rs lines 28-400. The queries are
made lazily in the code; here they are made before the opening is read. -/
def verifyProof (codec : Codec G) (hash : Hash) (pairing : G →ₗ[Fr] G₂ →ₗ[Fr] GT)
    (params : VerifierParams G G₂) (key : Key G) (repr : Fr) (instances : List (List Fr))
    (proof : List UInt8) : Except Verify.Stop Unit := do
  let (com, ch, t) ← readCommitments codec hash key repr instances proof
  let (e, t) ← readEvals key com t
  let queries ← total (claims (Ref.ofKey key) params.n instances (Ref.ofCommitments com) ch e)
  let (y, v, h1, u, h2, _) ← readOpening codec hash t
  let ok ← total (accepts pairing params.g0 params.g2 params.sG2 (queries.map Ref.toClaim) y v h1 u h2)
  if ok then return () else .error (.error .constraintSystemFailure)

end

end Verif
