import Verif.Model.Ipa
import Verif.Model.Shplonk

/-!
The opening of many queries without a trusted setup: `halo2_proofs/src/poly/ipa/multiopen.rs`, `multiopen/prover.rs`,
`multiopen/verifier.rs`. Queries are those of `Verif.Model.Shplonk`.
-/

namespace Verif.IpaOpen

open Shplonk (Claim)
open Ipa (Coords Msm Params Proof Draws Guard)

variable {ρ T : Type} [DecidableEq ρ]

/-- An entry is pushed unless it is there. -/
def addNew {α : Type} [DecidableEq α] (l : List α) (a : α) : List α := if a ∈ l then l else l ++ [a]

/-- The points, in the order of `point_index_map`. An index does not change once it is given, so that all points are
collected first. Models halo2_proofs/src/poly/ipa/multiopen.rs lines 75-85. -/
def points (qs : List (Claim ρ T)) : List Fr := (qs.map Claim.point).foldl addNew []

/-- The first query of each object, in the order of `commitment_map`. Models
halo2_proofs/src/poly/ipa/multiopen.rs lines 71-97. -/
def firsts (qs : List (Claim ρ T)) : List (Claim ρ T) :=
  qs.foldl (fun l q => if l.any (fun q' => decide (q'.ref = q.ref)) then l else l ++ [q]) []

/-- The points at which an object is queried, in the order of their index. Models
halo2_proofs/src/poly/ipa/multiopen.rs lines 110-118: a set of indices there. -/
def pointSet (qs : List (Claim ρ T)) (r : ρ) : List Fr :=
  (points qs).filter fun p => qs.any fun q => decide (q.ref = r ∧ q.point = p)

/-- The sets of points, in the order of `point_idx_sets`. Models halo2_proofs/src/poly/ipa/multiopen.rs lines 105-122 and
167-174. -/
def pointSets (qs : List (Claim ρ T)) : List (List Fr) := ((firsts qs).map fun q => pointSet qs q.ref).foldl addNew []

/-- The value of a query goes to the place of its point. Models halo2_proofs/src/poly/ipa/multiopen.rs lines 151-164. -/
def store (set : List Fr) (evals : List Fr) (q : Claim ρ T) : Except Panic (List Fr) :=
  match set.idxOf? q.point with
  | none => .error .unwrap
  | some i => if i < evals.length then .ok (evals.set i q.value) else .error .index

/-- The values of an object: as many as it has queries, a later query overwrites an earlier one. Models
halo2_proofs/src/poly/ipa/multiopen.rs lines 124-165; the loop over the queries for one object after the other. -/
def evals (qs : List (Claim ρ T)) (r : ρ) : Except Panic (List Fr) :=
  let own := qs.filter fun q => decide (q.ref = r)
  own.foldlM (store (pointSet qs r)) (List.replicate own.length 0)

/-- `CommitmentData`, without the indices of the points. Models halo2_proofs/src/poly/ipa/multiopen.rs lines 43-49. -/
structure Data (T : Type) where
  object : T
  setIndex : Nat
  evals : List Fr

/-- The entry of an object. Models halo2_proofs/src/poly/ipa/multiopen.rs lines 130-165. -/
def entry (qs : List (Claim ρ T)) (q : Claim ρ T) : Except Panic (Data T) := do
  let ev ← evals qs q.ref
  match (pointSets qs).idxOf? (pointSet qs q.ref) with
  | none => .error .unwrap
  | some i => return ⟨q.object, i, ev⟩

/-- `construct_intermediate_sets`. Models halo2_proofs/src/poly/ipa/multiopen.rs lines 67-177. -/
def intermediateSets (qs : List (Claim ρ T)) : Except Panic (List (Data T) × List (List Fr)) := do
  let data ← (firsts qs).mapM (entry qs)
  return (data, pointSets qs)

/-- The entries of a set. `accumulate` changes only what belongs to the set of the entry, so that the sets can be done one
after the other. Models halo2_proofs/src/poly/ipa/multiopen/prover.rs lines 66-72 and multiopen/verifier.rs lines 90-96. -/
def members (data : List (Data T)) (i : Nat) : List (Data T) := data.filter fun d => decide (d.setIndex = i)

/-! ### Prover -/

variable {M K : Type} [AddCommGroup M] [Module Fr M]

/-- The polynomial and the blinding factor of a set: `accumulate` over its entries. `None` is left if there are none. Models
halo2_proofs/src/poly/ipa/multiopen/prover.rs lines 50-73. -/
def combineStep (x1 : Fr) (st : Option (List Fr) × Fr) (o : List Fr × Fr) : Except Panic (Option (List Fr) × Fr) := do
  let poly ← match st.1 with
    | some poly => Shplonk.addPoly (Shplonk.mulPoly poly x1) o.1
    | none => .ok o.1
  return (some poly, st.2 * x1 + o.2)

/-- The loop over the entries of a set. -/
def combine (x1 : Fr) (data : List (Data (List Fr × Fr))) (i : Nat) : Except Panic (Option (List Fr) × Fr) :=
  ((members data i).map Data.object).foldlM (combineStep x1) (none, 0)

/-- `unwrap`. -/
def unwrap {α : Type} : Option α → Except Panic α
  | some a => .ok a
  | none => .error .unwrap

/-- The quotient of a set. Models halo2_proofs/src/poly/ipa/multiopen/prover.rs lines 79-88. -/
def quotient (n : Nat) (points poly : List Fr) : Except Panic (List Fr) := do
  return Domain.resize (← points.foldlM kateDivision poly) n

/-- `acc * x + &p`. -/
def mulAdd (x : Fr) (acc p : List Fr) : Except Panic (List Fr) := Shplonk.addPoly (Shplonk.mulPoly acc x) p

/-- Horner's rule for polynomials, starting with none. Models halo2_proofs/src/poly/ipa/multiopen/prover.rs lines 75-96. -/
def hornerPoly (x2 : Fr) : List (List Fr) → Except Panic (List Fr)
  | [] => .error .unwrap
  | p :: ps => ps.foldlM (mulAdd x2) p

/-- What the prover writes: the commitment to the quotient, the values of the sets, the opening. -/
structure OpenProof (M : Type) where
  qPrime : M
  u : List Fr
  ipa : Proof M

/-- `create_proof`, for the challenges that the transcript gives; the objects are polynomials with blinding factors. Models
halo2_proofs/src/poly/ipa/multiopen/prover.rs lines 33-124. -/
def prove (params : Params M) (qs : List (Claim ρ (List Fr × Fr))) (x1 x2 qPrimeBlind x3 x4 : Fr) (draws : Draws) (xi z : Fr)
    (us : List Fr) : Except Panic (OpenProof M) := do
  let (data, sets) ← intermediateSets qs
  let qs ← (List.range sets.length).mapM (combine x1 data)
  let polys ← qs.mapM fun q => unwrap q.1
  let quotients ← (sets.zip polys).mapM fun s => quotient params.n s.1 s.2
  let qPrime ← hornerPoly x2 quotients
  let commitment ← Ipa.commit params qPrime qPrimeBlind
  let u := polys.map fun p => evalPolynomial p x3
  let p ← polys.foldlM (mulAdd x4) qPrime
  let blind := (qs.map (·.2)).foldl (fun acc b => acc * x4 + b) qPrimeBlind
  let ipa ← Ipa.prove params draws p blind x3 xi z us
  return ⟨commitment, u, ipa⟩

/-! ### Verifier -/

/-- A commitment of a query: a point or a sum. Models halo2_proofs/src/poly/query.rs lines 93-109. -/
inductive Committed (K M : Type) where
  | point (p : M)
  | msm (m : Msm K)

variable [DecidableEq K] [Neg K] [DecidableEq M]

/-- `accumulate`. Models halo2_proofs/src/poly/ipa/multiopen/verifier.rs lines 70-86. -/
def accumulate (cs : Coords K M) (n : Nat) (x1 : Fr) (st : Msm K × List Fr) (d : Data (Committed K M)) :
    Except Panic (Msm K × List Fr) := do
  let m := st.1.scale x1
  let m ← match d.object with
    | .point p => m.appendTerm cs 1 p
    | .msm o => m.add n o
  return (m, List.zipWith (fun e s => s * x1 + e) d.evals st.2 ++ st.2.drop d.evals.length)

/-- The sum and the values of a set. Models halo2_proofs/src/poly/ipa/multiopen/verifier.rs lines 59-97. -/
def collapse (cs : Coords K M) (n : Nat) (x1 : Fr) (data : List (Data (Committed K M))) (set : List Fr × Nat) :
    Except Panic (Msm K × List Fr) :=
  (members data set.2).foldlM (accumulate cs n x1) ({}, List.replicate set.1.length 0)

/-- `eval * (x_3 - point).invert().unwrap()`. Models halo2_proofs/src/poly/ipa/multiopen/verifier.rs lines 124-126. -/
def divide (x3 : Fr) (eval point : Fr) : Except Panic Fr :=
  if x3 - point = 0 then .error .unwrap else .ok (eval * (x3 - point)⁻¹)

/-- The value of the quotient that follows from the values sent. Models
halo2_proofs/src/poly/ipa/multiopen/verifier.rs lines 115-129. -/
def evalStep (x2 x3 : Fr) (acc : Fr) (e : (List Fr × List Fr) × Fr) : Except Panic Fr := do
  let r ← lagrangeInterpolate e.1.1 e.1.2
  let eval ← e.1.1.foldlM (divide x3) (e.2 - evalPolynomial r x3)
  return acc * x2 + eval

/-- The loop over the sets. -/
def msmEval (x2 x3 : Fr) (l : List ((List Fr × List Fr) × Fr)) : Except Panic Fr := l.foldlM (evalStep x2 x3) 0

/-- The sum that is opened and its value. Models halo2_proofs/src/poly/ipa/multiopen/verifier.rs lines 135-144. -/
def gather (n : Nat) (x4 : Fr) (st : Msm K × Fr) (e : Msm K × Fr) : Except Panic (Msm K × Fr) := do
  let m ← (st.1.scale x4).add n e.1
  return (m, st.2 * x4 + e.2)

/-- `verify_proof`, for a proof that was read and the challenges that the transcript gives. `none` is
`Error::SamplingError`: there are too few values. The sum given is empty, as for a single proof. Models
halo2_proofs/src/poly/ipa/multiopen/verifier.rs lines 40-148. -/
def verify (cs : Coords K M) (params : Params M) (qs : List (Claim ρ (Committed K M))) (proof : OpenProof M)
    (x1 x2 x3 x4 xi z : Fr) (us : List Fr) : Except Panic (Option (Guard K)) := do
  let (data, sets) ← intermediateSets qs
  let q ← sets.zipIdx.mapM (collapse cs params.n x1 data)
  if proof.u.length < sets.length then return none else
  let u := proof.u.take sets.length
  let eval ← msmEval x2 x3 ((sets.zip (q.map (·.2))).zip u)
  let msm ← Msm.appendTerm cs {} 1 proof.qPrime
  let (msm, v) ← ((q.map (·.1)).zip u).foldlM (gather params.n x4) (msm, eval)
  return some (← Ipa.verify cs params msm proof.ipa x3 v xi z us)

/-- Is the opening accepted? `SingleStrategy`. Models halo2_proofs/src/poly/ipa/strategy.rs lines 132-150. -/
def accepts (cs : Coords K M) (params : Params M) (qs : List (Claim ρ (Committed K M))) (proof : OpenProof M)
    (x1 x2 x3 x4 xi z : Fr) (us : List Fr) : Except Panic Bool := do
  match ← verify cs params qs proof x1 x2 x3 x4 xi z us with
  | none => return false
  | some guard =>
    let msm ← guard.useChallenges params.n
    msm.check cs params

end Verif.IpaOpen
