import Verif.Model.PlonkVerifier
import Verif.Model.Kzg

/-!
The opening of the queries: `halo2_proofs/src/poly/kzg/multiopen/shplonk.rs` with
`shplonk/prover.rs` and `shplonk/verifier.rs`, and the final check of `poly/kzg/msm.rs` and
`poly/kzg/strategy.rs`.

Commitments and polynomials are told apart by their address (`core::ptr::eq`, poly/query.rs lines
38-42 and 111-122). Here each query carries a reference of any type `ρ` with decidable equality: two
queries have equal references exactly if they are about the object at the same address.
-/

namespace Verif.Shplonk

open Plonk

/-- A query: what it is about, the point, and the value. Models halo2_proofs/src/poly/query.rs lines
20-29 and 82-91; for a query of the prover the value is that of the polynomial (lines 51-53). -/
structure Claim (ρ T : Type) where
  ref : ρ
  object : T
  point : Fr
  value : Fr

/-- Inserting into a `BTreeSet` of field elements; a set is the list of its elements in increasing
order of their canonical representatives (halo2curves `Ord`, derive/field.rs). -/
def insertPoint (x : Fr) : List Fr → List Fr
  | [] => [x]
  | p :: ps => if x = p then p :: ps else if x.val < p.val then x :: p :: ps else p :: insertPoint x ps

variable {ρ T : Type} [DecidableEq ρ]

/-- The points at which each object is queried: the entry of the object is updated, or a new entry is
pushed. Models halo2_proofs/src/poly/kzg/multiopen/shplonk.rs lines 83-96. -/
def addRotation (q : Claim ρ T) : List (ρ × T × List Fr) → List (ρ × T × List Fr)
  | [] => [(q.ref, q.object, [q.point])]
  | e :: es =>
    if e.1 = q.ref then (e.1, e.2.1, insertPoint q.point e.2.2) :: es else e :: addRotation q es

/-- The objects with the same points: the entry of the set is extended, or a new entry is pushed.
Models halo2_proofs/src/poly/kzg/multiopen/shplonk.rs lines 108-116. -/
def addObject (e : ρ × T × List Fr) : List (List Fr × List (ρ × T)) → List (List Fr × List (ρ × T))
  | [] => [(e.2.2, [(e.1, e.2.1)])]
  | s :: ss => if s.1 = e.2.2 then (s.1, s.2 ++ [(e.1, e.2.1)]) :: ss else s :: addObject e ss

/-- `get_eval`: the value of the first query of the object at the point. Models
halo2_proofs/src/poly/kzg/multiopen/shplonk.rs lines 63-69. -/
def getEval (queries : List (Claim ρ T)) (ref : ρ) (point : Fr) : Except Panic Fr :=
  match queries.find? fun q => decide (q.ref = ref ∧ q.point = point) with
  | some q => .ok q.value
  | none => .error .unwrap

/-- Objects that are queried at the same points, each with its values there. Models
halo2_proofs/src/poly/kzg/multiopen/shplonk.rs lines 42-46. -/
structure RotationSet (T : Type) where
  objects : List (T × List Fr)
  points : List Fr

/-- `construct_intermediate_sets`: the sets, and all points. Models
halo2_proofs/src/poly/kzg/multiopen/shplonk.rs lines 54-145. -/
def intermediateSets (queries : List (Claim ρ T)) : Except Panic (List (RotationSet T) × List Fr) := do
  let superPoints := queries.foldl (fun s q => insertPoint q.point s) []
  let perObject := queries.foldl (fun m q => addRotation q m) []
  let perSet := perObject.foldl (fun m e => addObject e m) []
  let sets ← perSet.mapM fun (s : List Fr × List (ρ × T)) => do
    let objects ← s.2.mapM fun (o : ρ × T) => do
      let evals ← s.1.mapM (getEval queries o.1)
      return (o.2, evals)
    return (⟨objects, s.1⟩ : RotationSet T)
  return (sets, superPoints)

/-- `evaluate_vanishing_polynomial`. Models halo2_proofs/src/arithmetic.rs lines 469-471. -/
def vanishing (roots : List Fr) (z : Fr) : Fr := roots.foldl (fun acc p => (z - p) * acc) 1

/-- The points outside a set. Models halo2_proofs/src/poly/kzg/multiopen/shplonk/verifier.rs lines
83-87 and shplonk/prover.rs lines 211-215. -/
def diffs (superPoints points : List Fr) : List Fr := superPoints.filter fun p => p ∉ points

/-- `iter().zip(powers(base))`. Models halo2_proofs/src/arithmetic.rs lines 473-475. -/
def withPowers {α : Type} (base : Fr) (l : List α) : List (α × Fr) :=
  l.zipIdx.map fun (p : α × Nat) => (p.1, base ^ p.2)

/-! ### Verifier -/

variable {G : Type} [AddCommGroup G] [Module Fr G]

/-- `MSMKZG::scale`. Models halo2_proofs/src/poly/kzg/msm.rs lines 52-60. -/
def scale (m : List (Fr × G)) (factor : Fr) : List (Fr × G) := m.map fun (t : Fr × G) => (t.1 * factor, t.2)

/-- One object of a set: its multiple, and the value of the low degree equivalent. Models
halo2_proofs/src/poly/kzg/multiopen/shplonk/verifier.rs lines 103-123. -/
def innerTerm (points : List Fr) (u : Fr) (c : (Committed G × List Fr) × Fr) :
    Except Panic (List (Fr × G) × Fr) := do
  let r ← lagrangeInterpolate points c.1.2
  let msm := match c.1.1 with
    | .point p => [(c.2, p)]
    | .msm ts => scale ts c.2
  return (msm, c.2 * evalPolynomial r u)

/-- `reduce(f).unwrap()`. -/
def reduce {α : Type} (f : α → α → α) : List α → Except Panic α
  | [] => .error .unwrap
  | a :: as => .ok (as.foldl f a)

/-- The body of the loop over the sets, for the `i`-th set. The state: `z_0_diff_inverse`, `z_0`, the
outer sum and `r_outer_acc`. Models halo2_proofs/src/poly/kzg/multiopen/shplonk/verifier.rs lines
82-133. -/
def verifierStep (superPoints : List Fr) (y u : Fr) (state : Fr × Fr × List (Fr × G) × Fr) (i : Nat)
    (set : RotationSet (Committed G)) (powerOfV : Fr) : Except Panic (Fr × Fr × List (Fr × G) × Fr) := do
  let z := vanishing (diffs superPoints set.points) u
  let (inv, z0, zDiff) ←
    if i = 0 then
      if z = 0 then .error .unwrap else .ok (z⁻¹, vanishing set.points u, 1)
    else Except.ok (state.1, state.2.1, z * state.1)
  let terms ← (withPowers y set.objects).mapM (innerTerm set.points u)
  let inner ← reduce (fun (a b : List (Fr × G) × Fr) => (a.1 ++ b.1, a.2 + b.2)) terms
  return (inv, z0, state.2.2.1 ++ scale inner.1 (powerOfV * zDiff),
    state.2.2.2 + powerOfV * inner.2 * zDiff)

/-- The loop over the sets. -/
def verifierLoop (superPoints : List Fr) (y u : Fr) :
    List ((RotationSet (Committed G) × Fr) × Nat) → Fr × Fr × List (Fr × G) × Fr →
      Except Panic (Fr × Fr × List (Fr × G) × Fr)
  | [], state => .ok state
  | ((set, powerOfV), i) :: rest, state => do
    let state ← verifierStep superPoints y u state i set powerOfV
    verifierLoop superPoints y u rest state

/-- `VerifierSHPLONK::verify_proof` for the challenges and points read from the proof: the left and
the right sum of the guard. `g0` is `params.g[0]`. Models
halo2_proofs/src/poly/kzg/multiopen/shplonk/verifier.rs lines 53-147, with an empty accumulator
(poly/kzg/strategy.rs lines 76-80). -/
def verify (g0 : G) (queries : List (Claim ρ (Committed G))) (y v : Fr) (h1 : G) (u : Fr) (h2 : G) :
    Except Panic (List (Fr × G) × List (Fr × G)) := do
  let (sets, superPoints) ← intermediateSets queries
  let state ← verifierLoop superPoints y u (withPowers v sets).zipIdx (0, 0, [], 0)
  return ([(1, h2)], state.2.2.1 ++ [(-state.2.2.2, g0), (-state.2.1, h1), (u, h2)])

/-- `MSMKZG::eval`. Models halo2_proofs/src/poly/kzg/msm.rs lines 66-71. -/
def evalMsm (m : List (Fr × G)) : Except Panic G := bestMultiexp (m.map (·.1)) (m.map (·.2))

variable {G₂ GT : Type} [AddCommGroup G₂] [Module Fr G₂] [AddCommGroup GT] [Module Fr GT] [DecidableEq GT]

/-- `DualMSM::check`: the pairing is any bilinear map, its target is written additively. Models
halo2_proofs/src/poly/kzg/msm.rs lines 152-167. -/
def check (pairing : G →ₗ[Fr] G₂ →ₗ[Fr] GT) (g2 sG2 : G₂) (left right : List (Fr × G)) :
    Except Panic Bool := do
  let left ← evalMsm left
  let right ← evalMsm right
  return decide (pairing left sG2 + pairing right (-g2) = 0)

/-- The opening is accepted (`SingleStrategy::process`). Models halo2_proofs/src/poly/kzg/strategy.rs
lines 142-154. -/
def accepts (pairing : G →ₗ[Fr] G₂ →ₗ[Fr] GT) (g0 : G) (g2 sG2 : G₂)
    (queries : List (Claim ρ (Committed G))) (y v : Fr) (h1 : G) (u : Fr) (h2 : G) : Except Panic Bool := do
  let (left, right) ← verify g0 queries y v h1 u h2
  check pairing g2 sG2 left right

/-! ### Prover -/

/-- Addition of polynomials: the right one is sliced from each index of the left one on. Models
halo2_proofs/src/poly.rs lines 230-242. -/
def addPoly (a b : List Fr) : Except Panic (List Fr) :=
  if b.length < a.length - 1 then .error .index
  else .ok (a.zipIdx.map fun (p : Fr × Nat) => p.1 + b.getD p.2 0)

/-- Subtraction of polynomials. Models halo2_proofs/src/poly.rs lines 244-256. -/
def subPoly (a b : List Fr) : Except Panic (List Fr) :=
  if b.length < a.length - 1 then .error .index
  else .ok (a.zipIdx.map fun (p : Fr × Nat) => p.1 - b.getD p.2 0)

/-- Multiplication by a scalar; the cases of zero and one in the code give the same. Models
halo2_proofs/src/poly.rs lines 274-296. -/
def mulPoly (a : List Fr) (c : Fr) : List Fr := a.map fun x => x * c

/-- Subtraction of a constant. Models halo2_proofs/src/poly.rs lines 298-306. -/
def subConst (a : List Fr) (c : Fr) : Except Panic (List Fr) :=
  match a with
  | [] => .error .index
  | x :: xs => .ok ((x - c) :: xs)

/-- `map(|(poly, power)| poly * power).reduce(|acc, poly| acc + &poly).unwrap()`. -/
def combine (base : Fr) (polys : List (List Fr)) : Except Panic (List Fr) :=
  match (withPowers base polys).map fun (p : List Fr × Fr) => mulPoly p.1 p.2 with
  | [] => .error .unwrap
  | a :: as => as.foldlM addPoly a

/-- `div_by_vanishing`. Models halo2_proofs/src/poly/kzg/multiopen/shplonk/prover.rs lines 26-32. -/
def divByVanishing (poly roots : List Fr) : Except Panic (List Fr) := roots.foldlM kateDivision poly

/-- An object of a set with its low degree equivalent. -/
structure Extended where
  poly : List Fr
  low : List Fr

/-- A set of the prover. Models halo2_proofs/src/poly/kzg/multiopen/shplonk/prover.rs lines 77-80. -/
structure ExtendedSet where
  objects : List Extended
  points : List Fr

/-- `extend`. Models halo2_proofs/src/poly/kzg/multiopen/shplonk/prover.rs lines 39-53 and 179-189. -/
def extend (set : RotationSet (List Fr)) : Except Panic ExtendedSet := do
  let objects ← set.objects.mapM fun (o : List Fr × List Fr) => do
    let low ← lagrangeInterpolate set.points o.2
    return (⟨o.1, low⟩ : Extended)
  return ⟨objects, set.points⟩

/-- `quotient_contribution` of a commitment. Models
halo2_proofs/src/poly/kzg/multiopen/shplonk/prover.rs lines 62-74. -/
def Extended.numerator (e : Extended) : Except Panic (List Fr) :=
  if e.poly.length < e.low.length then .error .index
  else .ok (e.poly.zipIdx.map fun (p : Fr × Nat) => p.1 - e.low.getD p.2 0)

/-- `quotient_contribution` of a set. Models halo2_proofs/src/poly/kzg/multiopen/shplonk/prover.rs
lines 138-171. -/
def ExtendedSet.quotient (n : Nat) (y : Fr) (set : ExtendedSet) : Except Panic (List Fr) := do
  let numerators ← set.objects.mapM Extended.numerator
  let nx ← combine y numerators
  let q ← divByVanishing nx set.points
  return Domain.resize q n

/-- The first polynomial of the opening, with the sets and points it comes from. Models
halo2_proofs/src/poly/kzg/multiopen/shplonk/prover.rs lines 173-203. -/
def openFirst (n : Nat) (queries : List (Claim ρ (List Fr))) (y v : Fr) :
    Except Panic (List Fr × List ExtendedSet × List Fr) := do
  let (sets, superPoints) ← intermediateSets queries
  let sets ← sets.mapM extend
  let quotients ← sets.mapM (ExtendedSet.quotient n y)
  let hx ← combine v quotients
  return (hx, sets, superPoints)

/-- `linearisation_contribution` of a set. Models
halo2_proofs/src/poly/kzg/multiopen/shplonk/prover.rs lines 55-60 and 209-238. -/
def ExtendedSet.linearisation (superPoints : List Fr) (y u : Fr) (set : ExtendedSet) :
    Except Panic (List Fr × Fr) := do
  let zi := vanishing (diffs superPoints set.points) u
  let inner ← set.objects.mapM fun (e : Extended) => subConst e.poly (evalPolynomial e.low u)
  let lx ← combine y inner
  return (mulPoly lx zi, zi)

/-- The second polynomial of the opening. `checks`: debug assertions are on. Models
halo2_proofs/src/poly/kzg/multiopen/shplonk/prover.rs lines 209-278. -/
def openSecond (checks : Bool) (sets : List ExtendedSet) (superPoints hx : List Fr) (y v u : Fr) :
    Except Panic (List Fr) := do
  let contributions ← sets.mapM (ExtendedSet.linearisation superPoints y u)
  let lx ← combine v (contributions.map (·.1))
  let lx ← subPoly lx (mulPoly hx (vanishing superPoints u))
  if checks ∧ evalPolynomial lx u ≠ 0 then .error .assert else
  let h ← divByVanishing lx [u]
  let z ← at_ (contributions.map (·.2)) 0
  if z = 0 then .error .unwrap else
  return mulPoly h z⁻¹

end Verif.Shplonk
