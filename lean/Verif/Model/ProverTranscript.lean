import Verif.Model.PlonkProver
import Verif.Model.Transcript

/-!
The prover as it writes a proof: `halo2_proofs/src/plonk/prover.rs` with
`poly/kzg/multiopen/shplonk/prover.rs`.
-/

namespace Verif.PlonkProver

open Plonk Shplonk Transcript

variable {G G₂ : Type} [AddCommGroup G] [Module Fr G]

/-- A commitment is made and written. -/
def writeCommitment (codec : Codec G) (err : ProveErr) (c : Except Panic G) (w : Writer) : Except Stop Writer := do
  let c ← total c
  orErr err (writePoint codec w c)

/-- Commitments one after the other. -/
def writeAll (codec : Codec G) {α : Type} (commit : α → Except Panic G) : List α → Writer → Except Stop Writer
  | [], w => .ok w
  | p :: ps, w => do
    let w ← writeCommitment codec .transcript (commit p) w
    writeAll codec commit ps w

/-- The advice columns of a phase: `(phase, index)` of the columns left, and all columns so far. The
columns are those of the synthesis in this phase, with ones in the last row. Models
halo2_proofs/src/plonk/prover.rs lines 349-409; the code writes all commitments, then keeps all
columns. -/
def writeAdvice (codec : Codec G) (commit : List Fr → Except Panic G) (phase : Nat) (cols : List (List Fr)) :
    List (Nat × Nat) → List (List Fr) → Writer → Except Stop (List (List Fr) × Writer)
  | [], advice, w => .ok (advice, w)
  | (p, i) :: rest, advice, w =>
    if p = phase then do
      let col ← total (at_ cols i)
      let w ← writeCommitment codec .transcript (commit (adviceColumn col)) w
      writeAdvice codec commit phase cols rest (advice.set i (adviceColumn col)) w
    else writeAdvice codec commit phase cols rest advice w

/-- The phases one after the other. `synth` gives the columns when the circuit is synthesised in a
phase, with the challenges drawn so far (the others are zeros here, unknown values in the code). Models
halo2_proofs/src/plonk/prover.rs lines 292-418. -/
def writePhases (codec : Codec G) (hash : Hash) (commit : List Fr → Except Panic G) (cs : CS)
    (synth : Nat → List Fr → Except Stop (List (List Fr))) :
    List Nat → List (List Fr) → List Fr → Writer → Except Stop (List (List Fr) × List Fr × Writer)
  | [], advice, user, w => .ok (advice, user, w)
  | phase :: rest, advice, user, w => do
    let cols ← synth phase user
    let (advice, w) ← writeAdvice codec commit phase cols cs.advicePhase.zipIdx advice w
    let (user, absorbed) := squeezePhase hash phase cs.challengePhase.zipIdx user w.absorbed
    writePhases codec hash commit cs synth rest advice user ⟨absorbed, w.output⟩

/-- `squeeze_challenge_scalar` on a writer. -/
def draw (hash : Hash) (w : Writer) : Fr × Writer :=
  let (c, absorbed) := squeeze hash w.absorbed
  (c, ⟨absorbed, w.output⟩)

/-- The scalars in the order in which they are written. Models halo2_proofs/src/plonk/prover.rs lines
563-620. -/
def scalarsOf (e : Evals) : List Fr :=
  e.advice ++ e.fixed ++ [e.random] ++ e.sigma ++
    e.sets.flatMap (fun s => [s.product, s.next] ++ s.last.toList) ++
    e.lookups.flatMap (fun l => [l.product, l.next, l.input, l.inputInv, l.table])

/-- A query of the prover. -/
def ask (ref : Ref) (p : Coeffs) (point : Fr) : Claim Ref Coeffs := ⟨ref, p, point, evalPolynomial p point⟩

/-- The combined quotient. Models halo2_proofs/src/plonk/vanishing/prover.rs lines 131-135. -/
def combineQuotient (n : Nat) (xn : Fr) (pieces : List Coeffs) : Except Panic Coeffs :=
  pieces.reverse.foldlM (fun acc p => addPoly (mulPoly acc xn) p) (List.replicate n 0)

/-- The queries that are opened. Models halo2_proofs/src/plonk/prover.rs lines 622-666 with
plonk/permutation/prover.rs lines 207-216 and 280-324, plonk/lookup/prover.rs lines 343-382 and
plonk/vanishing/prover.rs lines 158-174. -/
def proverQueries (pk : ProvingKey) (com : Commitments Coeffs) (x : Fr) (h : Coeffs) :
    Except Panic (List (Claim Ref Coeffs)) := do
  let d := pk.domain
  let xNext := d.rotateOmega x 1
  let xInv := d.rotateOmega x (-1)
  let xLast := d.rotateOmega x (-((pk.cs.blindingFactors + 1 : Nat) : Int))
  let advice ← pk.cs.adviceQueries.mapM fun (q : Nat × Int) => do
    return ask (.advice q.1) (← at_ com.advice q.1) (d.rotateOmega x q.2)
  let products := com.products.zipIdx.flatMap fun (p : Coeffs × Nat) =>
    [ask (.product p.2) p.1 x, ask (.product p.2) p.1 xNext]
  let lasts := (com.products.zipIdx.reverse.drop 1).map fun (p : Coeffs × Nat) => ask (.product p.2) p.1 xLast
  let lookups := (com.permuted.zip com.lookupProducts).zipIdx.flatMap
    fun (p : ((Coeffs × Coeffs) × Coeffs) × Nat) =>
      [ask (.lookupProduct p.2) p.1.2 x, ask (.permutedInput p.2) p.1.1.1 x,
        ask (.permutedTable p.2) p.1.1.2 x, ask (.permutedInput p.2) p.1.1.1 xInv,
        ask (.lookupProduct p.2) p.1.2 xNext]
  let fixed ← pk.cs.fixedQueries.mapM fun (q : Nat × Int) => do
    return ask (.fixed q.1) (← at_ pk.fixedPolys q.1) (d.rotateOmega x q.2)
  let sigma := pk.sigmaPolys.zipIdx.map fun (p : Coeffs × Nat) => ask (.sigma p.2) p.1 x
  return advice ++ (products ++ lasts) ++ lookups ++ fixed ++ sigma ++
    [ask .quotient h x, ask .random com.random x]

/-- `create_proof` with `ProverSHPLONK`, for one proof: the bytes of the proof. Models
halo2_proofs/src/plonk/prover.rs lines 41-672 and
poly/kzg/multiopen/shplonk/prover.rs lines 116-284. The parts between the messages are those of
`createProof`; of several lookups the permuted columns are all made before the first is written. -/
def prove (checks : Bool) (codec : Codec G) (hash : Hash) (srs : Srs G G₂) (pk : ProvingKey) (repr : Fr)
    (instances : List (List Fr)) (synth : Nat → List Fr → Except Stop (List (List Fr))) (blinds : Blinds) :
    Except Stop (List UInt8) := do
  if instances.length ≠ pk.cs.numInstance then .error (.error .invalidInstances) else
  let n := srs.n
  let d := pk.domain
  let bf := pk.cs.blindingFactors
  let inst ← instances.mapM fun v => orErr .instanceTooLarge (instanceColumn n bf v)
  let w : Writer := ⟨instances.flatten.foldl commonScalar (commonScalar [] repr), []⟩
  let instPolys ← total (inst.mapM d.lagrangeToCoeff)
  let (columns, user, w) ← writePhases codec hash srs.commitLagrange pk.cs synth pk.cs.phases
    (List.replicate pk.cs.numAdvice (List.replicate n 0)) (List.replicate pk.cs.numChallenges 0) w
  let cols : Columns := ⟨pk.fixedValues, columns, inst⟩
  let (theta, w) := draw hash w
  let permuted ← permuteAll cols user n (n - (bf + 1)) theta
    ((pk.cs.lookups.zip blinds.permuted).map fun p => (p.1, p.2.1, p.2.2))
  let permutedPolys ← total (permuted.mapM fun p => do
    return ((← d.lagrangeToCoeff p.permutedInput), (← d.lagrangeToCoeff p.permutedTable)))
  let w ← writeAll codec srs.commitLagrange (permuted.flatMap fun p => [p.permutedInput, p.permutedTable]) w
  let (beta, w) := draw hash w
  let (gamma, w) := draw hash w
  let products ← total (permutationProducts pk n cols beta gamma blinds.products)
  let productPolys ← total (products.mapM d.lagrangeToCoeff)
  let w ← writeAll codec srs.commitLagrange products w
  let lookupProducts ← total ((permuted.zip blinds.lookups).mapM fun p =>
    lookupProduct n bf p.1 beta gamma p.2)
  let lookupPolys ← total (lookupProducts.mapM d.lagrangeToCoeff)
  let w ← writeAll codec srs.commitLagrange lookupProducts w
  let random ← total (d.lagrangeToCoeff (List.replicate n (1 : Fr)))
  let w ← writeCommitment codec .transcript (srs.commit random) w
  let (y, w) := draw hash w
  let advice ← total (cols.advice.mapM d.lagrangeToCoeff)
  let com : Commitments Coeffs := ⟨advice, permutedPolys, productPolys, lookupPolys, random, []⟩
  let h ← total (evaluateH pk n com instPolys ⟨user, theta, beta, gamma, y, 0⟩)
  let pieces ← total (quotientPieces d n h)
  let w ← writeAll codec srs.commit pieces w
  let (x, w) := draw hash w
  let com := { com with pieces := pieces }
  let e ← total (evals pk com x)
  let hPoly ← total (combineQuotient n (x ^ n) pieces)
  let w := (scalarsOf e).foldl writeScalar w
  let queries ← total (proverQueries pk com x hPoly)
  let (y', w) := draw hash w
  let (v, w) := draw hash w
  let (hx, sets, superPoints) ← total (openFirst n queries y' v)
  let w ← writeCommitment codec .constraintSystemFailure (srs.commit hx) w
  let (u, w) := draw hash w
  let lx ← total (openSecond checks sets superPoints hx y' v u)
  let w ← writeCommitment codec .constraintSystemFailure (srs.commit lx) w
  return w.output

/-- The columns of the brainfuck circuit with the tables `mx` when it is synthesised in a phase. Models
ckb_bf_prover's use of `Circuit::synthesize` in halo2_proofs/src/plonk/prover.rs lines 292-347. All
columns are listed; of these the prover keeps those of the phase. -/
def circuitSynth (k : Nat) (mx : Matrix) (inst : Nat → List Fr) (_phase : Nat) (user : List Fr) :
    Except Stop (List (List Fr)) :=
  match synthesize (2 ^ k) mx (fun i => user.getD i 0) inst with
  | .ok a => .ok ((List.range mainCS.numAdvice).map fun c => (List.range (2 ^ k)).map fun r => a.advice c r)
  | .error e => .error (.error (.synthesis e))

end Verif.PlonkProver
