import Verif.Model.Domain
import Verif.Model.Plonk

/-!
The verifier of the constraint system: `halo2_proofs/src/plonk/verifier.rs` with
`plonk/permutation/verifier.rs`, `plonk/lookup/verifier.rs` and `plonk/vanishing/verifier.rs`, for one
proof (`num_proofs = 1`, as in ckb_bf_verifier/src/main.rs line 130) and a commitment scheme that does
not query instances (KZG: `QUERY_INSTANCE = false`, poly/kzg/multiopen/shplonk/verifier.rs).

Commitments are of any type `C`: this code only hands them on.
-/

namespace Verif.Plonk

/-- What is read for one part of the permutation argument. Models
halo2_proofs/src/plonk/permutation/verifier.rs lines 17-22; the commitment is kept apart. -/
structure SetEval where
  product : Fr
  next : Fr
  last : Option Fr
  deriving DecidableEq

/-- What is read for one lookup. Models halo2_proofs/src/plonk/lookup/verifier.rs lines 26-33; the
commitments are kept apart. -/
structure LookupEval where
  product : Fr
  next : Fr
  input : Fr
  inputInv : Fr
  table : Fr
  deriving DecidableEq

/-- The scalars of the proof, in the order in which they are read. -/
structure Evals where
  advice : List Fr
  fixed : List Fr
  random : Fr
  sigma : List Fr
  sets : List SetEval
  lookups : List LookupEval
  deriving DecidableEq

/-- The challenges: those of the circuit and those of the argument. -/
structure Challenges where
  user : List Fr
  theta : Fr
  beta : Fr
  gamma : Fr
  y : Fr
  x : Fr
  deriving DecidableEq

/-- The commitments of the proof. -/
structure Commitments (C : Type) where
  advice : List C
  permuted : List (C × C)
  products : List C
  lookupProducts : List C
  random : C
  pieces : List C
  deriving DecidableEq

/-- The parts of the verifying key used here. Models halo2_proofs/src/plonk.rs lines 50-61;
`cs_degree` is `cs.degree` (line 186). -/
structure Key (C : Type) where
  domain : Domain
  cs : CS
  fixed : List C
  sigma : List C

/-- `slice[i]`. -/
def at_ {α : Type} (l : List α) (i : Nat) : Except Panic α :=
  match l[i]? with
  | some v => .ok v
  | none => .error .index

/-- `Expression::evaluate` with the closures of halo2_proofs/src/plonk/verifier.rs lines 271-286 and
plonk/lookup/verifier.rs lines 119-131: queries are answered by their index. -/
def evalExpr (cs : CS) (inst : List Fr) (e : Evals) (user : List Fr) : Expr → Except Panic Fr
  | .const c => .ok c
  | .selector _ => .error .unreachable
  | .fixed c r => at_ e.fixed (cs.fixedQueries.idxOf (c, r))
  | .advice c r => at_ e.advice (cs.adviceQueries.idxOf (c, r))
  | .instance_ c r => at_ inst (cs.instanceQueries.idxOf (c, r))
  | .challenge i => at_ user i
  | .neg a => do
    let a ← evalExpr cs inst e user a
    .ok (-a)
  | .sum a b => do
    let a ← evalExpr cs inst e user a
    let b ← evalExpr cs inst e user b
    .ok (a + b)
  | .product a b => do
    let a ← evalExpr cs inst e user a
    let b ← evalExpr cs inst e user b
    .ok (a * b)
  | .scaled a f => do
    let a ← evalExpr cs inst e user a
    .ok (a * f)

/-- `get_any_query_index(column, Rotation::cur())`. Models halo2_proofs/src/plonk/circuit.rs lines
1809-1851. -/
def queryIndex (qs : List (Nat × Int)) (c : Nat) : Except Panic Nat :=
  if (c, (0 : Int)) ∈ qs then .ok (qs.idxOf (c, 0)) else .error .unreachable

/-- The value of a column of the permutation. Models
halo2_proofs/src/plonk/permutation/verifier.rs lines 167-178. -/
def columnEval (cs : CS) (inst : List Fr) (e : Evals) : Col → Except Panic Fr
  | .advice c => do
    let i ← queryIndex cs.adviceQueries c
    at_ e.advice i
  | .fixed c => do
    let i ← queryIndex cs.fixedQueries c
    at_ e.fixed i
  | .instance_ c => do
    let i ← queryIndex cs.instanceQueries c
    at_ inst i

/-- `chunks(size)` of a slice; `size` is positive where this is used. -/
def chunks {α : Type} (size : Nat) (l : List α) : List (List α) :=
  (List.range ((l.length + size - 1) / size)).map fun i => (l.drop (i * size)).take size

/-- `l[start..start + len]`. Where this is used it fits, or a comparison of lengths fails next. -/
def slice {α : Type} (l : List α) (start len : Nat) : List α := (l.drop start).take len

/-- The product that ties a part of the permutation to the next row. Models
halo2_proofs/src/plonk/permutation/verifier.rs lines 163-203. -/
def productExpr (active beta gamma x : Fr) (chunkLen : Nat) (s : SetEval) (vals sigma : List Fr)
    (index : Nat) : Fr :=
  let left := (vals.zip sigma).foldl (fun (acc : Fr) p => acc * (p.1 + beta * p.2 + gamma)) s.next
  let right := (vals.foldl
    (fun (acc : Fr × Fr) v => (acc.1 * (v + acc.2 + gamma), acc.2 * deltaFr))
    (s.product, beta * x * deltaFr ^ (index * chunkLen))).1
  (left - right) * active

/-- Models halo2_proofs/src/plonk/permutation/verifier.rs lines 107-205. -/
def permExpressions (cs : CS) (inst : List Fr) (e : Evals) (l0 lLast lBlind beta gamma x : Fr) :
    Except Panic (List Fr) := do
  let chunkLen := cs.degree - 2
  let first := (e.sets.head?.map fun s => l0 * (1 - s.product)).toList
  let last := (e.sets.getLast?.map fun s => (s.product ^ 2 - s.product) * lLast).toList
  let links ← ((e.sets.drop 1).zip e.sets).mapM fun (p : SetEval × SetEval) =>
    match p.2.last with
    | none => .error .unwrap
    | some v => .ok ((p.1.product - v) * l0)
  let products ← (e.sets.zip ((chunks chunkLen cs.permutation).zip (chunks chunkLen e.sigma))).zipIdx.mapM
    fun (p : (SetEval × List Col × List Fr) × Nat) => do
      let vals ← p.1.2.1.mapM (columnEval cs inst e)
      .ok (productExpr (1 - (lLast + lBlind)) beta gamma x chunkLen p.1.1 vals p.1.2.2 p.2)
  .ok (first ++ last ++ links ++ products)

/-- Models halo2_proofs/src/plonk/lookup/verifier.rs lines 114-134. -/
def compress (cs : CS) (inst : List Fr) (e : Evals) (user : List Fr) (theta : Fr) (es : List Expr) :
    Except Panic Fr := do
  let vs ← es.mapM (evalExpr cs inst e user)
  .ok (vs.foldl (fun acc v => acc * theta + v) 0)

/-- Models halo2_proofs/src/plonk/lookup/verifier.rs lines 93-168. -/
def lookupExpressions (cs : CS) (inst : List Fr) (e : Evals) (user : List Fr)
    (l0 lLast lBlind theta beta gamma : Fr) (p : LookupEval) (l : Lookup) :
    Except Panic (List Fr) := do
  let active := 1 - (lLast + lBlind)
  let left := p.next * (p.input + beta) * (p.table + gamma)
  let input ← compress cs inst e user theta l.input
  let table ← compress cs inst e user theta l.table
  let right := p.product * (input + beta) * (table + gamma)
  .ok [l0 * (1 - p.product),
    lLast * (p.product ^ 2 - p.product),
    (left - right) * active,
    l0 * (p.input - p.table),
    (p.input - p.table) * (p.input - p.inputInv) * active]

/-- All expressions, in the verifier's order. Models halo2_proofs/src/plonk/verifier.rs lines
261-322. -/
def expressions (cs : CS) (inst : List Fr) (e : Evals) (ch : Challenges) (l0 lLast lBlind : Fr) :
    Except Panic (List Fr) := do
  let gates ← cs.gates.flatten.mapM (evalExpr cs inst e ch.user)
  let perm ← permExpressions cs inst e l0 lLast lBlind ch.beta ch.gamma ch.x
  let lookups ← (e.lookups.zip cs.lookups).mapM fun (p : LookupEval × Lookup) =>
    lookupExpressions cs inst e ch.user l0 lLast lBlind ch.theta ch.beta ch.gamma p.1 p.2
  .ok (gates ++ perm ++ lookups.flatten)

/-- The smallest and the largest rotation of a list of queries, and 0. Models
halo2_proofs/src/plonk/verifier.rs lines 179-191. -/
def rotationRange (qs : List (Nat × Int)) : Int × Int :=
  qs.foldl (fun (m : Int × Int) q =>
    if q.2 < m.1 then (q.2, m.2) else if q.2 > m.2 then (m.1, q.2) else m) (0, 0)

/-- `lo..hi` of 32-bit integers. -/
def intRange (lo hi : Int) : List Int := (List.range (hi - lo).toNat).map fun (i : Nat) => lo + (i : Int)

/-- `compute_inner_product`. Models halo2_proofs/src/arithmetic.rs lines 365-375. -/
def innerProduct (a b : List Fr) : Except Panic Fr :=
  if a.length ≠ b.length then .error .assert
  else .ok ((a.zip b).foldl (fun (acc : Fr) p => acc + p.1 * p.2) 0)

/-- The values of the public inputs. Models halo2_proofs/src/plonk/verifier.rs lines 177-216; the
conversion of the longest length to 32 bits is exact for lengths that fit in memory here. -/
def instanceEvals (d : Domain) (cs : CS) (x xn : Fr) (instances : List (List Fr)) :
    Except Panic (List Fr) :=
  let (minR, maxR) := rotationRange cs.instanceQueries
  let maxLen := (instances.map List.length).foldl max 0
  let ls := d.lIRange x xn (intRange (-maxR) (maxLen + minR.natAbs))
  cs.instanceQueries.mapM fun (q : Nat × Int) => do
    let col ← at_ instances q.1
    let offset := (maxR - q.2).toNat
    innerProduct col (slice ls offset col.length)

/-- A commitment of a query: a point, or a combination of points. -/
inductive Committed (C : Type)
  | point (c : C)
  | msm (terms : List (Fr × C))
  deriving DecidableEq

/-- A claim that the polynomial behind a commitment has a value at a point. Models
halo2_proofs/src/poly/query.rs `VerifierQuery`. -/
structure Query (C : Type) where
  commitment : Committed C
  point : Fr
  value : Fr
  deriving DecidableEq

/-- The combined quotient commitment. Models halo2_proofs/src/plonk/vanishing/verifier.rs lines
101-111. -/
def combinePieces {C : Type} (xn : Fr) (pieces : List C) : List (Fr × C) :=
  pieces.reverse.foldl (fun acc c => acc.map (fun (t : Fr × C) => (t.1 * xn, t.2)) ++ [(1, c)]) []

variable {C : Type}

/-- Queries of columns: `iter().enumerate()` over the list of queries. Models
halo2_proofs/src/plonk/verifier.rs lines 354-362 and 371-384. -/
def columnQueries (d : Domain) (x : Fr) (qs : List (Nat × Int)) (commitments : List C)
    (evals : List Fr) : Except Panic (List (Query C)) :=
  qs.zipIdx.mapM fun (q : (Nat × Int) × Nat) => do
    let c ← at_ commitments q.1.1
    let v ← at_ evals q.2
    .ok ⟨.point c, d.rotateOmega x q.1.2, v⟩

/-- Models halo2_proofs/src/plonk/permutation/verifier.rs lines 207-242. -/
def permQueries (d : Domain) (bf : Nat) (x : Fr) (sets : List (C × SetEval)) :
    Except Panic (List (Query C)) := do
  let xNext := d.rotateOmega x 1
  let xLast := d.rotateOmega x (-((bf + 1 : Nat) : Int))
  let lasts ← (sets.reverse.drop 1).mapM fun (s : C × SetEval) =>
    match s.2.last with
    | none => .error .unwrap
    | some v => .ok (Query.mk (.point s.1) xLast v)
  .ok (sets.flatMap (fun s =>
    [⟨.point s.1, x, s.2.product⟩, ⟨.point s.1, xNext, s.2.next⟩]) ++ lasts)

/-- Models halo2_proofs/src/plonk/lookup/verifier.rs lines 170-209. -/
def lookupQueries (d : Domain) (x : Fr) (permuted : C × C) (product : C) (p : LookupEval) :
    List (Query C) :=
  let xInv := d.rotateOmega x (-1)
  let xNext := d.rotateOmega x 1
  [⟨.point product, x, p.product⟩, ⟨.point permuted.1, x, p.input⟩,
    ⟨.point permuted.2, x, p.table⟩, ⟨.point permuted.1, xInv, p.inputInv⟩,
    ⟨.point product, xNext, p.next⟩]

/-- From the commitments, challenges and scalars to the queries that are left to check: the value
expected of the quotient is computed, then all queries are listed. `n` is the number of rows of the
parameters (not of the key). Models halo2_proofs/src/plonk/verifier.rs lines 176-216 and 243-389 with
plonk/vanishing/verifier.rs lines 91-138. -/
def claims (key : Key C) (n : Nat) (instances : List (List Fr)) (com : Commitments C)
    (ch : Challenges) (e : Evals) : Except Panic (List (Query C)) := do
  let xn := ch.x ^ n
  let inst ← instanceEvals key.domain key.cs ch.x xn instances
  let bf := key.cs.blindingFactors
  let ls := key.domain.lIRange ch.x xn (intRange (-((bf + 1 : Nat) : Int)) 1)
  if ls.length ≠ 2 + bf then .error .assert else
  let lLast ← at_ ls 0
  let lBlind := (slice ls 1 bf).foldl (fun acc v => acc + v) 0
  let l0 ← at_ ls (1 + bf)
  let exprs ← expressions key.cs inst e ch l0 lLast lBlind
  let sum := exprs.foldl (fun acc v => acc * ch.y + v) 0
  if xn - 1 = 0 then .error .unwrap else
  let expected := sum * (xn - 1)⁻¹
  let advice ← columnQueries key.domain ch.x key.cs.adviceQueries com.advice e.advice
  let perm ← permQueries key.domain bf ch.x (com.products.zip e.sets)
  let lookups := ((com.permuted.zip com.lookupProducts).zip e.lookups).flatMap fun p =>
    lookupQueries key.domain ch.x p.1.1 p.1.2 p.2
  let fixed ← columnQueries key.domain ch.x key.cs.fixedQueries key.fixed e.fixed
  let sigma := (key.sigma.zip e.sigma).map fun p => ⟨.point p.1, ch.x, p.2⟩
  .ok (advice ++ perm ++ lookups ++ fixed ++ sigma ++
    [⟨.msm (combinePieces xn com.pieces), ch.x, expected⟩, ⟨.point com.random, ch.x, e.random⟩])

end Verif.Plonk
