import Verif.Model.PlonkVerifier
import Verif.Model.Keygen
import Verif.Model.Lookup
import Verif.Model.Evaluation
import Verif.Model.Arith

/-!
The prover of the constraint system: `halo2_proofs/src/plonk/prover.rs` with
`plonk/permutation/prover.rs`, `plonk/lookup/prover.rs`, `plonk/vanishing/prover.rs` and `evaluate_h`
of `plonk/evaluation.rs`, for one proof (`circuits.len() = 1`, as in ckb_bf_prover/src/main.rs) and a
commitment scheme that does not query instances.

Polynomials stand for their commitments. `parallelize` cuts vectors into pieces and handles each piece
as the whole would be; here there is one piece. Parameters and key have the same number of rows.
-/

namespace Verif.PlonkProver

open Plonk

/-- A polynomial in coefficient form, the constant coefficient first. -/
abbrev Coeffs := List Fr

/-- `ProvingKey`. Models halo2_proofs/src/plonk.rs lines 230-245 with plonk/permutation.rs
`ProvingKey`; of the verifying key only the domain and the constraint system. The evaluator is
computed where it is used. -/
structure ProvingKey where
  domain : Domain
  cs : CS
  l0 : Coeffs
  lLast : Coeffs
  lActive : Coeffs
  fixedValues : List (List Fr)
  fixedPolys : List Coeffs
  sigmaValues : List (List Fr)
  sigmaPolys : List Coeffs

/-- What `keygen_pk` does after synthesis. Models halo2_proofs/src/plonk/keygen.rs lines 320-411 and
plonk/permutation/keygen.rs lines 168-242. -/
def assemblePk (fuel : Nat) (cs : CS) (n : Nat) (domain : Domain) (a : Assembly) :
    Except Panic (Except SynthErr ProvingKey) := do
  match ← PermAssembly.copyAll fuel a.copies (PermAssembly.new n cs.permutation) with
  | .error e => return .error e
  | .ok p =>
    let (c, cols, _) ← cs.compressSelectors (Keygen.activations cs n a)
    let fixed := Keygen.fixedValues cs n a cols
    let fixedPolys ← fixed.mapM domain.lagrangeToCoeff
    let sigma ← Keygen.permutationValues domain.omega c.cs.permutation.length n p.mapping
    let sigmaPolys ← sigma.mapM domain.lagrangeToCoeff
    let (l0, lLast, lActive) := Keygen.basisValues c.cs n
    let l0 ← domain.lagrangeToCoeff l0
    let lLast ← domain.lagrangeToCoeff lLast
    let lActive ← domain.lagrangeToCoeff lActive
    return .ok ⟨domain, c.cs, l0, lLast, lActive, fixed, fixedPolys, sigma, sigmaPolys⟩

/-- `keygen_pk` for the brainfuck circuit with the tables `mx`. Models
halo2_proofs/src/plonk/keygen.rs lines 288-411. `ch` and `inst` as in `keygenVk`. -/
def keygenPk (checks : Bool) (fuel fuel' k : Nat) (mx : Matrix) (ch : Nat → Fr)
    (inst : Nat → List Fr) : Except Panic (Except SynthErr ProvingKey) := do
  let domain ← Domain.new checks fuel mainCS.degree k
  match synthesize (2 ^ k) mx ch inst with
  | .error e => return .error e
  | .ok a => assemblePk fuel' mainCS (2 ^ k) domain a

/-- The columns, by their values in the rows. -/
structure Columns where
  fixed : List (List Fr)
  advice : List (List Fr)
  inst : List (List Fr)

/-- An instance column: the values, padded with zeros; `none` is the error `InstanceTooLarge`. Models
halo2_proofs/src/plonk/prover.rs lines 84-95. -/
def instanceColumn (n bf : Nat) (values : List Fr) : Option (List Fr) :=
  if values.length > n - (bf + 1) then none
  else some (values ++ List.replicate (n - values.length) 0)

/-- An advice column: the last entry is set to one ("blinding factors"). Models
halo2_proofs/src/plonk/prover.rs lines 367-375. -/
def adviceColumn (values : List Fr) : List Fr := values.set (values.length - 1) 1

/-- The value of an expression in a row. Models `evaluate` of halo2_proofs/src/plonk/evaluation.rs
lines 804-842. -/
def evalRow (cols : Columns) (user : List Fr) (n idx : Nat) : Expr → Except Panic Fr
  | .const c => .ok c
  | .selector _ => .error .unreachable
  | .fixed c r => do at_ (← at_ cols.fixed c) (rotationIdx idx r n)
  | .advice c r => do at_ (← at_ cols.advice c) (rotationIdx idx r n)
  | .instance_ c r => do at_ (← at_ cols.inst c) (rotationIdx idx r n)
  | .challenge i => at_ user i
  | .neg a => do return - (← evalRow cols user n idx a)
  | .sum a b => do return (← evalRow cols user n idx a) + (← evalRow cols user n idx b)
  | .product a b => do return (← evalRow cols user n idx a) * (← evalRow cols user n idx b)
  | .scaled a f => do return (← evalRow cols user n idx a) * f

/-- `compress_expressions`. Models halo2_proofs/src/plonk/lookup/prover.rs lines 93-112; the code
handles one expression after the other, here it is one row after the other. -/
def compressRows (cols : Columns) (user : List Fr) (n : Nat) (theta : Fr) (es : List Expr) :
    Except Panic (List Fr) :=
  (List.range n).mapM fun idx => do
    let vs ← es.mapM (evalRow cols user n idx)
    return vs.foldl (fun acc v => acc * theta + v) 0

/-- What is kept of a lookup after its permuted columns are committed to. Models
halo2_proofs/src/plonk/lookup/prover.rs lines 31-40. -/
structure Permuted where
  input : List Fr
  table : List Fr
  permutedInput : List Fr
  permutedTable : List Fr

/-- `commit_permuted`; `none` is the error `ConstraintSystemFailure`. `blindA` and `blindS` are drawn
from the random number generator. Models halo2_proofs/src/plonk/lookup/prover.rs lines 65-155. -/
def commitPermuted (cols : Columns) (user : List Fr) (n usable : Nat) (theta : Fr) (l : Lookup)
    (blindA blindS : List Fr) : Except Panic (Option Permuted) := do
  let input ← compressRows cols user n theta l.input
  let table ← compressRows cols user n theta l.table
  match ← Lookup.permutePair n usable input table blindA blindS with
  | none => return none
  | some (a, s) => return some ⟨input, table, a, s⟩

/-- `z[0] = start`, `z[i + 1] = z[i] * m[i]`. -/
def running (start : Fr) : List Fr → List Fr
  | [] => [start]
  | m :: ms => start :: running (start * m) ms

/-- The denominators of a set, not yet inverted: columns with their permutation columns. Models
halo2_proofs/src/plonk/permutation/prover.rs lines 98-117. All vectors are of length `n`. -/
def denominators (beta gamma : Fr) (cols : List (List Fr × List Fr)) (acc : List Fr) : List Fr :=
  cols.foldl (fun (acc : List Fr) c =>
    (acc.zip (c.1.zip c.2)).map fun (p : Fr × Fr × Fr) => p.1 * (beta * p.2.2 + gamma + p.2.1)) acc

/-- The numerators are multiplied in; `delta` is `deltaomega`. Models
halo2_proofs/src/plonk/permutation/prover.rs lines 122-145. All vectors are of length `n`. -/
def numerators (omega beta gamma : Fr) : List (List Fr) → Fr → List Fr → List Fr × Fr
  | [], delta, acc => (acc, delta)
  | c :: cs, delta, acc =>
    numerators omega beta gamma cs (delta * deltaFr)
      ((acc.zip (c.zip (Keygen.geometric omega acc.length delta))).map
        fun (p : Fr × Fr × Fr) => p.1 * (p.2.2 * beta + gamma + p.2.1))

/-- The column a permutation is about. Models halo2_proofs/src/plonk/permutation/prover.rs lines
101-105. -/
def valuesOf (cols : Columns) : Col → Except Panic (List Fr)
  | .advice c => at_ cols.advice c
  | .fixed c => at_ cols.fixed c
  | .instance_ c => at_ cols.inst c

/-- The loop over the sets: `lastZ` and `delta` are carried over. `blinds` has one list of random
values for each set. Models halo2_proofs/src/plonk/permutation/prover.rs lines 80-188. -/
def productSets (omega beta gamma : Fr) (n bf : Nat) (cols : Columns) :
    List (List Col × List (List Fr)) → List (List Fr) → Fr → Fr → Except Panic (List (List Fr))
  | (columns, sigma) :: sets, blind :: blinds, delta, lastZ => do
    let values ← columns.mapM (valuesOf cols)
    let den := denominators beta gamma (values.zip sigma) (List.replicate n 1)
    let (modified, delta) := numerators omega beta gamma values delta (den.map fun v => v⁻¹)
    let z := running lastZ (modified.take (n - 1))
    let z := z.take (n - bf) ++ blind
    let lastZ ← at_ z (n - (bf + 1))
    let zs ← productSets omega beta gamma n bf cols sets blinds delta lastZ
    return z :: zs
  | _, _, _, _ => .ok []

/-- `Argument::commit`: the running products by their values. Models
halo2_proofs/src/plonk/permutation/prover.rs lines 46-191; `cs_degree >= 3` always holds. -/
def permutationProducts (pk : ProvingKey) (n : Nat) (cols : Columns) (beta gamma : Fr)
    (blinds : List (List Fr)) : Except Panic (List (List Fr)) :=
  let len := pk.cs.degree - 2
  productSets pk.domain.omega beta gamma n pk.cs.blindingFactors cols
    ((chunks len pk.cs.permutation).zip (chunks len pk.sigmaValues)) blinds 1 1

/-- `commit_product`: the running product by its values. Models
halo2_proofs/src/plonk/lookup/prover.rs lines 165-247. Batch inversion leaves zeros as they are. -/
def lookupProduct (n bf : Nat) (p : Permuted) (beta gamma : Fr) (blind : List Fr) :
    Except Panic (List Fr) :=
  let den := (p.permutedInput.zip p.permutedTable).map fun (q : Fr × Fr) =>
    ((beta + q.1) * (gamma + q.2))⁻¹
  let fractions := (den.zip (p.input.zip p.table)).map fun (q : Fr × Fr × Fr) =>
    q.1 * (q.2.1 + beta) * (q.2.2 + gamma)
  let z := (running 1 fractions).take (n - bf) ++ blind
  if z.length = n then .ok z else .error .assert

/-- One part of the extended domain: all columns there. -/
structure Cosets where
  l0 : List Fr
  lLast : List Fr
  lActive : List Fr
  cols : Columns
  sets : List (List Fr)
  sigma : List (List Fr)

/-- `*value = *value * y + term`. -/
def foldTerms (y : Fr) {α : Type} (term : α → Except Panic Fr) : List α → Fr → Except Panic Fr
  | [], value => .ok value
  | a :: as, value => do foldTerms y term as (value * y + (← term a))

/-- The loop over the parts of the permutation: `current_delta` is carried over. Models
halo2_proofs/src/plonk/evaluation.rs lines 437-472. -/
def foldSets (y beta gamma : Fr) (cols : Columns) (lActive : List Fr) (idx next : Nat) :
    List (List Col × List Fr × List (List Fr)) → Fr → Fr → Except Panic Fr
  | [], _, value => .ok value
  | (columns, set, sigma) :: rest, delta, value => do
    let values ← columns.mapM (valuesOf cols)
    let vals ← values.mapM fun v => at_ v idx
    let sig ← sigma.mapM fun v => at_ v idx
    let left := (vals.zip sig).foldl (fun (acc : Fr) p => acc * (p.1 + beta * p.2 + gamma)) (← at_ set next)
    let right := vals.foldl (fun (acc : Fr × Fr) v => (acc.1 * (v + acc.2 + gamma), acc.2 * deltaFr))
      (← at_ set idx, delta)
    foldSets y beta gamma cols lActive idx next rest right.2
      (value * y + (left - right.1) * (← at_ lActive idx))

/-- The terms of the permutation argument in one row of a part; `point` is `current_extended_omega`
times the power of `omega` of the row. Models halo2_proofs/src/plonk/evaluation.rs lines 362-476. -/
def permutationValue (cs : CS) (n : Nat) (c : Cosets) (y beta gamma point : Fr) (idx : Nat)
    (value : Fr) : Except Panic Fr := do
  if c.sets = [] then .ok value else
  let next := rotationIdx idx 1 n
  let last := rotationIdx idx (-((cs.blindingFactors + 1 : Nat) : Int)) n
  let len := cs.degree - 2
  let l0 ← at_ c.l0 idx
  let zFirst ← at_ (← at_ c.sets 0) idx
  let value := value * y + (1 - zFirst) * l0
  let zLast ← at_ (← at_ c.sets (c.sets.length - 1)) idx
  let value := value * y + (zLast * zLast - zLast) * (← at_ c.lLast idx)
  let value ← foldTerms y (fun (p : List Fr × List Fr) => do
    return ((← at_ p.1 idx) - (← at_ p.2 last)) * l0) ((c.sets.drop 1).zip c.sets) value
  foldSets y beta gamma c.cols c.lActive idx next
    ((chunks len cs.permutation).zip (c.sets.zip (chunks len c.sigma))) (beta * zetaFr * point) value

/-- The terms of one lookup in one row of a part; `tableValue` is what the graph of the lookup
computes. Models halo2_proofs/src/plonk/evaluation.rs lines 516-560. -/
def lookupValue (n : Nat) (c : Cosets) (product input table : List Fr) (y beta gamma : Fr) (idx : Nat)
    (tableValue value : Fr) : Except Panic Fr := do
  let next := rotationIdx idx 1 n
  let prev := rotationIdx idx (-1) n
  let z ← at_ product idx
  let a ← at_ input idx
  let s ← at_ table idx
  let l0 ← at_ c.l0 idx
  let active ← at_ c.lActive idx
  let value := value * y + (1 - z) * l0
  let value := value * y + (z * z - z) * (← at_ c.lLast idx)
  let value := value * y +
    ((← at_ product next) * (a + beta) * (s + gamma) - z * tableValue) * active
  let value := value * y + (a - s) * l0
  let value := value * y + (a - s) * (a - (← at_ input prev)) * active
  return value

/-- All lookups in one row of a part: the graphs with the intermediates left by the row before.
Returns the value and the intermediates. Models halo2_proofs/src/plonk/evaluation.rs lines 479-562; the
code handles one lookup after the other, here it is one row after the other. -/
def foldLookups (n : Nat) (c : Cosets) (x : GraphInput) (idx : Nat) :
    List (Graph × List Fr × List Fr × List Fr) → List (List Fr) → Fr →
      Except Panic (Fr × List (List Fr))
  | (g, product, input, table) :: rest, data :: datas, value => do
    let (t, data) ← g.evaluate data { x with previous := 0 } idx n
    let value ← lookupValue n c product input table x.y x.beta x.gamma idx t value
    let (value, datas) ← foldLookups n c x idx rest datas value
    return (value, data :: datas)
  | _, datas, value => .ok (value, datas)

/-- All terms in one row of a part. Models halo2_proofs/src/plonk/evaluation.rs lines 339-562. -/
def rowValue (cs : CS) (n : Nat) (gates : Graph) (lookups : List (Graph × List Fr × List Fr × List Fr))
    (c : Cosets) (x : GraphInput) (point : Fr) (idx : Nat) (datas : List (List Fr)) :
    Except Panic (Fr × List (List Fr)) := do
  let (value, _) ← gates.evaluate (List.replicate gates.numIntermediates 0) x idx n
  let value ← permutationValue cs n c x.y x.beta x.gamma point idx value
  foldLookups n c x idx lookups datas value

/-- The rows `idx, idx + 1, ...` of a part, one for each unit of the first argument. -/
def partRows (cs : CS) (n : Nat) (omega : Fr) (gates : Graph)
    (lookups : List (Graph × List Fr × List Fr × List Fr)) (c : Cosets) (x : GraphInput) :
    Nat → Nat → Fr → List (List Fr) → Except Panic (List Fr)
  | 0, _, _, _ => .ok []
  | m + 1, idx, point, datas => do
    let (value, datas) ← rowValue cs n gates lookups c x point idx datas
    let rest ← partRows cs n omega gates lookups c x m (idx + 1) (point * omega) datas
    return value :: rest

/-- One part of the extended domain. Models halo2_proofs/src/plonk/evaluation.rs lines 301-567. -/
def partValues (pk : ProvingKey) (n : Nat) (com : Commitments Coeffs) (instPolys : List Coeffs)
    (ch : Challenges) (factor : Fr) : Except Panic (List Fr) := do
  let d := pk.domain
  let fixed ← pk.fixedPolys.mapM fun p => d.coeffToExtendedPart p factor
  let l0 ← d.coeffToExtendedPart pk.l0 factor
  let lLast ← d.coeffToExtendedPart pk.lLast factor
  let lActive ← d.coeffToExtendedPart pk.lActive factor
  let advice ← com.advice.mapM fun p => d.coeffToExtendedPart p factor
  let inst ← instPolys.mapM fun p => d.coeffToExtendedPart p factor
  let sets ← com.products.mapM fun p => d.coeffToExtendedPart p factor
  let sigma ← pk.sigmaPolys.mapM fun p => d.coeffToExtendedPart p factor
  let gates ← Graph.ofGates pk.cs.gates
  let graphs ← pk.cs.lookups.mapM Graph.ofLookup
  let permuted ← com.permuted.mapM fun p => do
    return ((← d.coeffToExtendedPart p.1 factor), (← d.coeffToExtendedPart p.2 factor))
  let products ← com.lookupProducts.mapM fun p => d.coeffToExtendedPart p factor
  let lookups := (graphs.zip (products.zip permuted)).map
    fun (p : Graph × List Fr × List Fr × List Fr) => (p.1, p.2.1, p.2.2.1, p.2.2.2)
  let c : Cosets := ⟨l0, lLast, lActive, ⟨fixed, advice, inst⟩, sets, sigma⟩
  let x : GraphInput := ⟨fixed, advice, inst, ch.user, ch.beta, ch.gamma, ch.theta, ch.y, 0⟩
  partRows pk.cs n d.omega gates lookups c x n 0 factor
    (graphs.map fun g => List.replicate g.numIntermediates 0)

/-- `evaluate_h`: all parts. Models halo2_proofs/src/plonk/evaluation.rs lines 277-577. -/
def evaluateH (pk : ProvingKey) (n : Nat) (com : Commitments Coeffs) (instPolys : List Coeffs)
    (ch : Challenges) : Except Panic (List Fr) := do
  let parts ← (List.range (pk.domain.extendedLen / 2 ^ (pk.domain.k % 64))).mapM fun i =>
    partValues pk n com instPolys ch (pk.domain.extendedOmega ^ i)
  pk.domain.extendedFromLagrangeVec parts

/-- `chunks_exact(n)`. -/
def chunksExact (n : Nat) (l : List Fr) : List (List Fr) :=
  (List.range (l.length / n)).map fun i => (l.drop (i * n)).take n

/-- `construct`: the pieces of the quotient. Models halo2_proofs/src/plonk/vanishing/prover.rs lines
68-121. -/
def quotientPieces (d : Domain) (n : Nat) (h : List Fr) : Except Panic (List Coeffs) := do
  let h ← d.divideByVanishingPoly h
  let h ← d.extendedToCoeff h
  return chunksExact n h

/-- The random values the prover draws. -/
structure Blinds where
  permuted : List (List Fr × List Fr)
  products : List (List Fr)
  lookups : List (List Fr)

/-- Errors of the prover. `transcript` is the error for the point at infinity. -/
inductive ProveErr
  | transcript
  | invalidInstances
  | instanceTooLarge
  | constraintSystemFailure
  | synthesis (e : SynthErr)
  deriving DecidableEq, Repr

/-- A panic, or an error that is returned. -/
inductive Stop
  | panic (p : Panic)
  | error (e : ProveErr)
  deriving DecidableEq, Repr

/-- Code that can only panic. -/
def total {α : Type} : Except Panic α → Except Stop α
  | .ok a => .ok a
  | .error p => .error (.panic p)

/-- `ok_or`. -/
def orErr {α : Type} (e : ProveErr) : Option α → Except Stop α
  | some a => .ok a
  | none => .error (.error e)

/-- The lookups, one after the other. -/
def permuteAll (cols : Columns) (user : List Fr) (n usable : Nat) (theta : Fr) :
    List (Lookup × List Fr × List Fr) → Except Stop (List Permuted)
  | [] => .ok []
  | (l, blindA, blindS) :: rest => do
    let p ← total (commitPermuted cols user n usable theta l blindA blindS)
    let p ← orErr .constraintSystemFailure p
    let ps ← permuteAll cols user n usable theta rest
    return p :: ps

/-- The scalars of the proof. Models halo2_proofs/src/plonk/prover.rs lines 556-605 with
plonk/vanishing/prover.rs line 146, plonk/permutation/prover.rs lines 219-278 and
plonk/lookup/prover.rs lines 305-345. -/
def evals (pk : ProvingKey) (com : Commitments Coeffs) (x : Fr) : Except Panic Evals := do
  let d := pk.domain
  let advice ← pk.cs.adviceQueries.mapM fun (q : Nat × Int) => do
    return evalPolynomial (← at_ com.advice q.1) (d.rotateOmega x q.2)
  let fixed ← pk.cs.fixedQueries.mapM fun (q : Nat × Int) => do
    return evalPolynomial (← at_ pk.fixedPolys q.1) (d.rotateOmega x q.2)
  let random := evalPolynomial com.random x
  let sigma := pk.sigmaPolys.map fun p => evalPolynomial p x
  let sets := com.products.zipIdx.map fun (p : Coeffs × Nat) =>
    (⟨evalPolynomial p.1 x, evalPolynomial p.1 (d.rotateOmega x 1),
      if p.2 + 1 < com.products.length then
        some (evalPolynomial p.1 (d.rotateOmega x (-((pk.cs.blindingFactors + 1 : Nat) : Int))))
      else none⟩ : SetEval)
  let lookups := (com.lookupProducts.zip com.permuted).map fun (p : Coeffs × Coeffs × Coeffs) =>
    (⟨evalPolynomial p.1 x, evalPolynomial p.1 (d.rotateOmega x 1), evalPolynomial p.2.1 x,
      evalPolynomial p.2.1 (d.rotateOmega x (-1)), evalPolynomial p.2.2 x⟩ : LookupEval)
  return ⟨advice, fixed, random, sigma, sets, lookups⟩

/-- `create_proof` up to the opening of the queries, for witness columns `witness`: the commitments
(as polynomials) and the scalars. Everything is a function of the challenges and the random values;
each commitment only uses the challenges drawn before it. Models halo2_proofs/src/plonk/prover.rs
lines 54-605 but for the synthesis of the witness, which is `proveCircuit`. -/
def createProof (pk : ProvingKey) (n : Nat) (instances witness : List (List Fr)) (ch : Challenges)
    (blinds : Blinds) : Except Stop (Commitments Coeffs × Evals) := do
  if instances.length ≠ pk.cs.numInstance then .error (.error .invalidInstances) else
  let d := pk.domain
  let bf := pk.cs.blindingFactors
  let inst ← instances.mapM fun v => orErr .instanceTooLarge (instanceColumn n bf v)
  let instPolys ← total (inst.mapM d.lagrangeToCoeff)
  let cols : Columns := ⟨pk.fixedValues, witness.map adviceColumn, inst⟩
  let permuted ← permuteAll cols ch.user n (n - (bf + 1)) ch.theta
    ((pk.cs.lookups.zip blinds.permuted).map fun p => (p.1, p.2.1, p.2.2))
  let permutedPolys ← total (permuted.mapM fun p => do
    return ((← d.lagrangeToCoeff p.permutedInput), (← d.lagrangeToCoeff p.permutedTable)))
  let products ← total (permutationProducts pk n cols ch.beta ch.gamma blinds.products)
  let products ← total (products.mapM d.lagrangeToCoeff)
  let lookupProducts ← total ((permuted.zip blinds.lookups).mapM fun p =>
    lookupProduct n bf p.1 ch.beta ch.gamma p.2)
  let lookupProducts ← total (lookupProducts.mapM d.lagrangeToCoeff)
  let random ← total (d.lagrangeToCoeff (List.replicate n (1 : Fr)))
  let advice ← total (cols.advice.mapM d.lagrangeToCoeff)
  let com : Commitments Coeffs := ⟨advice, permutedPolys, products, lookupProducts, random, []⟩
  let h ← total (evaluateH pk n com instPolys ch)
  let pieces ← total (quotientPieces d n h)
  let com := { com with pieces := pieces }
  let e ← total (evals pk com ch.x)
  return (com, e)

/-- The witness of the brainfuck circuit: in each phase the circuit is synthesised and the columns of
the phase are kept. In the first phase no challenge is known; columns of later phases are not assigned
then. Here unknown challenges are zeros (the columns of the first phase do not depend on them). Models
halo2_proofs/src/plonk/prover.rs lines 292-422. -/
def witnessColumns (k : Nat) (mx : Matrix) (user : List Fr) (inst : Nat → List Fr) :
    Except Stop (List (List Fr)) :=
  match synthesize (2 ^ k) mx (fun _ => 0) inst, synthesize (2 ^ k) mx (fun i => user.getD i 0) inst with
  | .ok a0, .ok a1 => .ok ((List.range mainCS.numAdvice).map fun c => (List.range (2 ^ k)).map fun r =>
      if mainCS.advicePhase[c]? = some 0 then a0.advice c r else a1.advice c r)
  | .error e, _ => .error (.error (.synthesis e))
  | _, .error e => .error (.error (.synthesis e))

/-- `create_proof` for the brainfuck circuit. -/
def proveCircuit (pk : ProvingKey) (k : Nat) (mx : Matrix) (inst : Nat → List Fr) (ch : Challenges)
    (blinds : Blinds) : Except Stop (Commitments Coeffs × Evals) := do
  let witness ← witnessColumns k mx ch.user inst
  createProof pk (2 ^ k) [inst 0, inst 1] witness ch blinds

end Verif.PlonkProver
