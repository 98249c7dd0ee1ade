import Verif.Model.EccFixed

/-!
How the tables of a fixed point are computed: `halo2_gadgets/src/ecc/chip/constants.rs`. File paths are relative to
`/repo/halo2_gadgets/src` unless they begin with `halo2_proofs`.
-/

namespace Verif.Gadget.Tables

section

variable {F : Type} [Field F]

/-- One factor of a Lagrange basis polynomial: `tmp` is multiplied by `denom · (X - xk)`. Models
halo2_proofs/src/arithmetic.rs lines 444-452. -/
def timesFactor (tmp : List F) (denom xk : F) : List F :=
  ((tmp ++ [0]).zip (0 :: tmp)).map fun (p : F × F) => p.1 * (-denom * xk) + p.2 * denom

/-- The other points, for the point of index `j`. Models halo2_proofs/src/arithmetic.rs lines 422-426 and 439-443. -/
def otherPoints (points : List F) (j : Nat) : List F :=
  (points.zipIdx.filter fun p => p.2 ≠ j).map (·.1)

/-- `lagrange_interpolate` over any field. Models halo2_proofs/src/arithmetic.rs lines 414-465. Batch inversion leaves
zeros as they are, as `0⁻¹ = 0` does. The two assertions on lengths, lines 455 and 456, hold by construction and are not
modelled. -/
def interpolate (points evals : List F) : Except Stop (List F) :=
  if points.length ≠ evals.length then .error .panic
  else if points.length = 1 then .ok [evals.getD 0 0]
  else
    let polys := points.zipIdx.map fun p =>
      (otherPoints points p.2).foldl (fun tmp xk => timesFactor tmp (p.1 - xk)⁻¹ xk) [1]
    .ok ((polys.zip evals).foldl (fun final p =>
      (final.zip p.1).map fun c => c.1 + c.2 * p.2) (List.replicate points.length 0))

end

variable {p : Nat} [Fact p.Prime]

/-- `(base * scalar).to_affine()` for the point of coordinates `x` and `y`, (0, 0) for the identity. Models
ecc/chip/constants.rs lines 54 and 75. The arithmetic is of the crate pasta_curves, which is not part of the repository;
that of `halo2curves` stands for it. -/
def multiple (q : Nat) (x y : ZMod p) (scalar : ZMod q) : Aff (ZMod p) :=
  (Jac.mul ⟨x, y, 1⟩ (leBytes 32 scalar.val)).toAffine

/-- `compute_window_table`, with scalars modulo `q`. Models ecc/chip/constants.rs lines 41-83. The subtraction in line 47
underflows when there are no windows. -/
def windowTable (q : Nat) (x y : ZMod p) (n : Nat) : Except Stop (List (List (Aff (ZMod p)))) :=
  if n = 0 then .error .panic
  else
    let sum := (List.range (n - 1)).foldl (fun acc j => acc + 2 ^ (3 * j + 1)) (0 : ZMod q)
    .ok (((List.range (n - 1)).map fun w => (List.range 8).map fun k =>
        multiple q x y (((k + 2 : Nat) : ZMod q) * 8 ^ w)) ++
      [(List.range 8).map fun (k : Nat) => multiple q x y ((k : ZMod q) * 8 ^ (n - 1) - sum)])

/-- `point.coordinates().unwrap()`, which panics for the identity. Models ecc/chip/constants.rs lines 98 and 128. -/
def coordinates (a : Aff (ZMod p)) : Except Stop (ZMod p × ZMod p) :=
  if a.x = 0 ∧ a.y = 0 then .error .panic else .ok (a.x, a.y)

/-- What `compute_lagrange_coeffs` does with one window. Models ecc/chip/constants.rs lines 95-105; that there are 8
coefficients holds by construction. -/
def windowCoeffs (window : List (Aff (ZMod p))) : Except Stop (List (ZMod p)) := do
  let cs ← window.mapM coordinates
  interpolate ((List.range 8).map fun (i : Nat) => (i : ZMod p)) (cs.map Prod.fst)

/-- `compute_lagrange_coeffs`. Models ecc/chip/constants.rs lines 87-107. -/
def lagrangeCoeffs (q : Nat) (x y : ZMod p) (n : Nat) : Except Stop (List (List (ZMod p))) := do
  let table ← windowTable q x y n
  table.mapM windowCoeffs

/-- The roots for one `z`, if it fits all the second coordinates. Models ecc/chip/constants.rs lines 131-139. The square
root is that of the crate pasta_curves and is a parameter. -/
def roots (sqrt : ZMod p → Option (ZMod p)) (ys : List (ZMod p)) (z : Nat) : Option (List (ZMod p)) :=
  ys.mapM fun y => if (sqrt (-y + (z : ZMod p))).isNone then sqrt (y + (z : ZMod p)) else none

/-- `find_z_and_us`. Models ecc/chip/constants.rs lines 123-142; the assertion in line 124 holds by construction. -/
def findZ (sqrt : ZMod p → Option (ZMod p)) (window : List (Aff (ZMod p))) :
    Except Stop (Option (Nat × List (ZMod p))) := do
  let cs ← window.mapM coordinates
  return (List.range (1000 * 2 ^ 16)).findSome? fun z => (roots sqrt (cs.map Prod.snd) z).map fun us => (z, us)

/-- The collection of the results for the windows, which ends with the first window for which nothing is found. Models
ecc/chip/constants.rs lines 145-148. -/
def findAll (sqrt : ZMod p → Option (ZMod p)) : List (List (Aff (ZMod p))) →
    Except Stop (Option (List (Nat × List (ZMod p))))
  | [] => .ok (some [])
  | window :: rest => do
    match ← findZ sqrt window with
    | none => return none
    | some r => return (← findAll sqrt rest).map (r :: ·)

/-- `find_zs_and_us`. Models ecc/chip/constants.rs lines 118-149. -/
def findZsAndUs (sqrt : ZMod p → Option (ZMod p)) (q : Nat) (x y : ZMod p) (n : Nat) :
    Except Stop (Option (List (Nat × List (ZMod p)))) := do
  findAll sqrt (← windowTable q x y n)

/-- One window of `test_zs_and_us`: the loop ends with the shorter of the roots and the points. Models
ecc/chip/constants.rs lines 160-168. The roots are elements here and bytes there, which are unwrapped in line 165. -/
def testWindow (sqrt : ZMod p → Option (ZMod p)) (z : Nat) : List (ZMod p) → List (Aff (ZMod p)) → Except Stop Unit
  | u :: us, point :: points => do
    let (_, y) ← coordinates point
    assert ((z : ZMod p) + y == u * u)
    assert (sqrt ((z : ZMod p) - y)).isNone
    testWindow sqrt z us points
  | _, _ => .ok ()

/-- The loop of `test_zs_and_us` over the windows, which ends with the shortest of the three lists. Models
ecc/chip/constants.rs lines 159-169. -/
def testWindows (sqrt : ZMod p → Option (ZMod p)) : List (List (ZMod p)) → List Nat → List (List (Aff (ZMod p))) →
    Except Stop Unit
  | us :: u, z :: zs, points :: table => do
    testWindow sqrt z us points
    testWindows sqrt u zs table
  | _, _, _ => .ok ()

/-- `test_zs_and_us`. Models ecc/chip/constants.rs lines 156-170. -/
def testZsAndUs (sqrt : ZMod p → Option (ZMod p)) (q : Nat) (x y : ZMod p) (z : List Nat) (u : List (List (ZMod p)))
    (n : Nat) : Except Stop Unit := do
  testWindows sqrt u z (← windowTable q x y n)

end Verif.Gadget.Tables
