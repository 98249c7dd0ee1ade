import Verif.Model.Arith
import Verif.Model.Kzg

/-!
The commitment scheme without a trusted setup, `halo2_proofs/src/poly/ipa`: `commitment.rs`, `commitment/prover.rs`,
`commitment/verifier.rs`, `msm.rs`, `strategy.rs`. The curve is any whose scalar field is `Fr`, as a module.
-/

namespace Verif.Ipa

variable {M K : Type} [AddCommGroup M] [Module Fr M]

/-- `ParamsIPA`. Models halo2_proofs/src/poly/ipa/commitment.rs lines 29-37; `g_lagrange` dropped. -/
structure Params (M : Type) where
  k : Nat
  n : Nat
  g : List M
  w : M
  u : M

/-- `commit`. Models halo2_proofs/src/poly/ipa/commitment.rs lines 222-236. -/
def commit (params : Params M) (poly : List Fr) (r : Fr) : Except Panic M :=
  bestMultiexp (poly ++ [r]) (params.g ++ [params.w])

/-- `shrink`: `k` and `n` stay. Models halo2_proofs/src/poly/ipa/commitment.rs lines 86-92. -/
def shrink (params : Params M) (k : Nat) : Except Panic (Params M) :=
  if params.k < k then .error .assert else .ok { params with g := params.g.take (2 ^ k) }

/-- `downsize`. Models halo2_proofs/src/poly/ipa/commitment.rs lines 77-84. -/
def downsize (params : Params M) (k : Nat) : Except Panic (Params M) :=
  if params.k < k then .error .assert else .ok { params with k := k, n := 2 ^ k, g := params.g.take (2 ^ k) }

/-! ### Prover -/

/-- `&l[0..n]`. -/
def upTo {α : Type} (l : List α) (n : Nat) : Except Panic (List α) := if l.length < n then .error .index else .ok (l.take n)

/-- `&l[n..]`. -/
def starting {α : Type} (l : List α) (n : Nat) : Except Panic (List α) := if l.length < n then .error .index else .ok (l.drop n)

/-- The variables of the rounds. Models halo2_proofs/src/poly/ipa/commitment/prover.rs lines 79-100. -/
structure State (M : Type) where
  p : List Fr
  b : List Fr
  g : List M
  f : Fr

/-- The two points sent in a round. Models halo2_proofs/src/poly/ipa/commitment/prover.rs lines 104-123. -/
def message (params : Params M) (z : Fr) (half : Nat) (st : State M) (lRand rRand : Fr) : Except Panic (M × M) := do
  let l ← bestMultiexp (← starting st.p half) (← upTo st.g half)
  let r ← bestMultiexp (← upTo st.p half) (← starting st.g half)
  let valueL ← computeInnerProduct (← starting st.p half) (← upTo st.b half)
  let valueR ← computeInnerProduct (← upTo st.p half) (← starting st.b half)
  let l := l + (← bestMultiexp [valueL * z, lRand] [params.u, params.w])
  let r := r + (← bestMultiexp [valueR * z, rRand] [params.u, params.w])
  return (l, r)

/-- One of the loops that collapse a vector: `v[i] = v[i] + v[i + half] * c` for `i < half`, then `truncate`. Models
halo2_proofs/src/poly/ipa/commitment/prover.rs lines 130-135. -/
def collapse (half : Nat) (v : List Fr) (c : Fr) : Except Panic (List Fr) :=
  if v.length < half + half then .error .index
  else .ok (List.zipWith (fun a a' => a + a' * c) (v.take half) (v.drop half))

/-- `parallel_generator_collapse`, then `truncate`. Models halo2_proofs/src/poly/ipa/commitment/prover.rs lines 138-139
and 156-168. The slices given to the threads partition `g_lo`, so the order does not matter. -/
def collapseG (half : Nat) (g : List M) (c : Fr) : List M :=
  let len := g.length / 2
  (List.zipWith (fun a a' => a + c • a') (g.take len) (g.drop len) ++ g.drop len).take half

/-- The rest of a round, after the challenge. Models halo2_proofs/src/poly/ipa/commitment/prover.rs lines 125-143. -/
def fold (half : Nat) (st : State M) (lRand rRand u : Fr) : Except Panic (State M) := do
  if u = 0 then .error .unwrap else
  let uInv := u⁻¹
  let p ← collapse half st.p uInv
  let b ← collapse half st.b u
  return ⟨p, b, collapseG half st.g u, st.f + lRand * uInv + rRand * u⟩

/-- The rounds: with `j` to go, for the random values and challenges of these rounds. Models
halo2_proofs/src/poly/ipa/commitment/prover.rs lines 103-144: `half` is `1 << (params.k - j - 1)`, which halves in each
round. -/
def rounds (params : Params M) (z : Fr) : Nat → State M → List (Fr × Fr) → List Fr → Except Panic (List (M × M) × State M)
  | j + 1, st, (lRand, rRand) :: rand, u :: us => do
    let m ← message params z (2 ^ j) st lRand rRand
    let st ← fold (2 ^ j) st lRand rRand u
    let (ms, st) ← rounds params z j st rand us
    return (m :: ms, st)
  | _, st, _, _ => .ok ([], st)

/-- What the prover writes. -/
structure Proof (M : Type) where
  s : M
  rounds : List (M × M)
  c : Fr
  f : Fr

/-- What the prover draws: the coefficients and the blinding factor of `s_poly`, two values for each round. -/
structure Draws where
  s : List Fr
  sBlind : Fr
  rounds : List (Fr × Fr)

/-- `create_proof`, for the challenges that the transcript gives. Each of them is used only after the messages before it
were made. Models halo2_proofs/src/poly/ipa/commitment/prover.rs lines 30-154. -/
def prove (params : Params M) (draws : Draws) (p : List Fr) (blind x : Fr) (xi z : Fr) (us : List Fr) : Except Panic (Proof M) := do
  if p.length ≠ params.n then .error .assert else
  let s ← match draws.s with
    | [] => .error .index
    | s0 :: ss => .ok ((s0 - evalPolynomial draws.s x) :: ss)
  let sCommitment ← commit params s draws.sBlind
  let p' ← if s.length ≠ p.length then .error .assert else .ok (List.zipWith (fun a b => a * xi + b) s p)
  let v := evalPolynomial p' x
  let p' ← match p' with
    | [] => .error .index
    | a :: as => .ok ((a - v) :: as)
  let b := (List.range (2 ^ params.k)).map (x ^ ·)
  let (ms, st) ← rounds params z params.k ⟨p', b, params.g, draws.sBlind * xi + blind⟩ draws.rounds us
  match st.p with
  | [c] => return ⟨sCommitment, ms, c, st.f⟩
  | _ => .error .assert

/-! ### Sums of multiples of points -/

/-- What the sums use of the curve: the coordinates of a point other than the identity, and `from_xy`. -/
structure Coords (K M : Type) where
  coords : M → Option (K × K)
  fromXY : K → K → Option M

/-- `MSMIPA`. Models halo2_proofs/src/poly/ipa/msm.rs lines 13-21; the map from x coordinates as a list, in the order of
insertion, which does not matter for the sum. -/
structure Msm (K : Type) where
  g : Option (List Fr) := none
  w : Option Fr := none
  u : Option Fr := none
  other : List (K × Fr × K) := []

variable [DecidableEq K] [Neg K]

/-- `entry(x).and_modify(..).or_insert((scalar, y))`. Models halo2_proofs/src/poly/ipa/msm.rs lines 44-54, 79-90 and 97-107. -/
def upsert (x : K) (scalar : Fr) (y : K) : List (K × Fr × K) → Except Panic (List (K × Fr × K))
  | [] => .ok [(x, scalar, y)]
  | (x', s', y') :: es =>
    if x' = x then
      if y' = y then .ok ((x', s' + scalar, y') :: es)
      else if y' = -y then .ok ((x', s' - scalar, y') :: es)
      else .error .assert
    else do return (x', s', y') :: (← upsert x scalar y es)

variable [DecidableEq M]

/-- `append_term`. Models halo2_proofs/src/poly/ipa/msm.rs lines 72-92. -/
def Msm.appendTerm (cs : Coords K M) (m : Msm K) (scalar : Fr) (point : M) : Except Panic (Msm K) :=
  if point = 0 then .ok m
  else match cs.coords point with
    | none => .error .unwrap
    | some (x, y) => do return { m with other := ← upsert x scalar y m.other }

/-- `add_to_g_scalars`. Models halo2_proofs/src/poly/ipa/msm.rs lines 203-212. -/
def Msm.addToG (m : Msm K) (n : Nat) (scalars : List Fr) : Except Panic (Msm K) :=
  if scalars.length ≠ n then .error .assert
  else .ok { m with g := some (match m.g with
    | some g => List.zipWith (· + ·) g scalars ++ g.drop scalars.length
    | none => scalars) }

/-- `add_to_w_scalar`. Models halo2_proofs/src/poly/ipa/msm.rs lines 214-216. -/
def Msm.addToW (m : Msm K) (scalar : Fr) : Msm K := { m with w := some (match m.w with | none => scalar | some a => a + scalar) }

/-- `add_to_u_scalar`. Models halo2_proofs/src/poly/ipa/msm.rs lines 219-221. -/
def Msm.addToU (m : Msm K) (scalar : Fr) : Msm K := { m with u := some (match m.u with | none => scalar | some a => a + scalar) }

/-- `add_msm`. Models halo2_proofs/src/poly/ipa/msm.rs lines 42-67 and 95-121; `n` is `params.n`. -/
def Msm.add (m : Msm K) (n : Nat) (o : Msm K) : Except Panic (Msm K) := do
  let other ← o.other.foldlM (fun es (e : K × Fr × K) => upsert e.1 e.2.1 e.2.2 es) m.other
  let m := { m with other := other }
  let m ← match o.g with | some g => m.addToG n g | none => .ok m
  let m := match o.w with | some w => m.addToW w | none => m
  return match o.u with | some u => m.addToU u | none => m

/-- `scale`. Models halo2_proofs/src/poly/ipa/msm.rs lines 123-136. -/
def Msm.scale (m : Msm K) (c : Fr) : Msm K :=
  ⟨m.g.map fun g => g.map (· * c), m.w.map (· * c), m.u.map (· * c), m.other.map fun e => (e.1, e.2.1 * c, e.2.2)⟩

/-- `add_constant_term`. Models halo2_proofs/src/poly/ipa/msm.rs lines 191-199. -/
def Msm.addConstant (m : Msm K) (n : Nat) (c : Fr) : Except Panic (Msm K) :=
  match m.g.getD (List.replicate n 0) with
  | [] => .error .index
  | a :: as => .ok { m with g := some ((a + c) :: as) }

/-- The point of an entry. Models halo2_proofs/src/poly/ipa/msm.rs lines 150-153. -/
def Coords.point (cs : Coords K M) (e : K × Fr × K) : Except Panic M :=
  match cs.fromXY e.1 e.2.2 with
  | some p => .ok p
  | none => .error .unwrap

/-- `eval`. Models halo2_proofs/src/poly/ipa/msm.rs lines 142-175. -/
def Msm.eval (cs : Coords K M) (params : Params M) (m : Msm K) : Except Panic M := do
  let points ← m.other.mapM cs.point
  let (scalars, bases) := (m.other.map (·.2.1), points)
  let (scalars, bases) := match m.w with | some w => (scalars ++ [w], bases ++ [params.w]) | none => (scalars, bases)
  let (scalars, bases) := match m.u with | some u => (scalars ++ [u], bases ++ [params.u]) | none => (scalars, bases)
  let (scalars, bases) := match m.g with | some g => (scalars ++ g, bases ++ params.g) | none => (scalars, bases)
  bestMultiexp scalars bases

/-- `check`. Models halo2_proofs/src/poly/ipa/msm.rs lines 138-140. -/
def Msm.check (cs : Coords K M) (params : Params M) (m : Msm K) : Except Panic Bool := do
  return decide ((← m.eval cs params) = 0)

/-! ### Verifier -/

/-- `compute_b`. Models halo2_proofs/src/poly/ipa/commitment/verifier.rs lines 99-107. -/
def computeB (x : Fr) (us : List Fr) : Fr :=
  (us.reverse.foldl (fun (s : Fr × Fr) u => (s.1 * (1 + u * s.2), s.2 * s.2)) (1, x)).1

/-- `compute_s`: the part of the vector that is filled doubles with each challenge. Models
halo2_proofs/src/poly/ipa/strategy.rs lines 161-177. -/
def computeS (us : List Fr) (init : Fr) : Except Panic (List Fr) :=
  if us = [] then .error .assert
  else .ok (us.reverse.foldl (fun v u => v ++ v.map (· * u)) [init])

/-- `GuardIPA`. Models halo2_proofs/src/poly/ipa/strategy.rs lines 23-30; the packed challenges dropped. -/
structure Guard (K : Type) where
  msm : Msm K
  negC : Fr
  us : List Fr

/-- `verify_proof`, for a proof that was read and the challenges that the transcript gives; there are `k` rounds. A
challenge zero stays zero in the batch inversion. Models
halo2_proofs/src/poly/ipa/commitment/verifier.rs lines 23-96. -/
def verify (cs : Coords K M) (params : Params M) (msm : Msm K) (proof : Proof M) (x v xi z : Fr) (us : List Fr) :
    Except Panic (Guard K) := do
  let msm ← msm.addConstant params.n (-v)
  let msm ← msm.appendTerm cs xi proof.s
  let msm ← (proof.rounds.zip us).foldlM (fun (m : Msm K) (e : (M × M) × Fr) => do
    (← m.appendTerm cs e.2⁻¹ e.1.1).appendTerm cs e.2 e.1.2) msm
  let msm := msm.addToU (-proof.c * computeB x us * z)
  let msm := msm.addToW (-proof.f)
  return ⟨msm, -proof.c, us⟩

/-- `use_challenges`. Models halo2_proofs/src/poly/ipa/strategy.rs lines 52-57. -/
def Guard.useChallenges (gd : Guard K) (n : Nat) : Except Panic (Msm K) := do
  gd.msm.addToG n (← computeS gd.us gd.negC)

/-- `compute_g`. Models halo2_proofs/src/poly/ipa/strategy.rs lines 73-77. -/
def Guard.computeG (gd : Guard K) (params : Params M) : Except Panic M := do
  bestMultiexp (← computeS gd.us 1) params.g

/-- `use_g`, the sum only. Models halo2_proofs/src/poly/ipa/strategy.rs lines 61-70. -/
def Guard.useG (cs : Coords K M) (gd : Guard K) (g : M) : Except Panic (Msm K) := gd.msm.appendTerm cs gd.negC g

/-- `SingleStrategy` with a commitment given as a sum: is the opening accepted? Models
halo2_proofs/src/poly/ipa/strategy.rs lines 132-150. -/
def accepts (cs : Coords K M) (params : Params M) (msm : Msm K) (proof : Proof M) (x v xi z : Fr) (us : List Fr) :
    Except Panic Bool := do
  let guard ← verify cs params msm proof x v xi z us
  let msm ← guard.useChallenges params.n
  msm.check cs params

/-- One opening for a batch: a commitment, a proof, the point and the value, the challenges. -/
structure Item (M : Type) where
  commitment : M
  proof : Proof M
  x : Fr
  v : Fr
  xi : Fr
  z : Fr
  us : List Fr

/-- `AccumulatorStrategy` for openings of single commitments: the accumulator is scaled by 42, then the commitment and the
proof are added. Models halo2_proofs/src/poly/ipa/strategy.rs lines 92-117. -/
def acceptsBatch (cs : Coords K M) (params : Params M) (items : List (Item M)) : Except Panic Bool := do
  let msm ← items.foldlM (fun (m : Msm K) (i : Item M) => do
    let m ← (m.scale 42).appendTerm cs 1 i.commitment
    let guard ← verify cs params m i.proof i.x i.v i.xi i.z i.us
    guard.useChallenges params.n) {}
  msm.check cs params

end Verif.Ipa
