import Verif.Model.Compile
import Mathlib.Algebra.Field.Defs

/-!
Fractions as cell values: `halo2_proofs/src/plonk/assigned.rs` and `batch_invert_assigned` of
`halo2_proofs/src/poly.rs`.
-/

namespace Verif

/-- `Assigned`. Models halo2_proofs/src/plonk/assigned.rs lines 11-18. -/
inductive Fraction (F : Type)
  | zero
  | trivial (x : F)
  | rational (numerator denominator : F)
  deriving DecidableEq

namespace Fraction

variable {F : Type} [Field F] [DecidableEq F]

/-- `is_zero_vartime`. Models halo2_proofs/src/plonk/assigned.rs lines 299-308. -/
def isZero : Fraction F → Bool
  | zero => true
  | trivial x => decide (x = 0)
  | rational n d => decide (n = 0) || decide (d = 0)

/-- `eq`. Models halo2_proofs/src/plonk/assigned.rs lines 45-71. The alternatives of a pattern with a
guard are tried one after the other, each with the guard. -/
def eq (a b : Fraction F) : Bool :=
  match a, b with
  | zero, zero => true
  | zero, x => x.isZero
  | x, zero => x.isZero
  | trivial x, trivial y => decide (x = y)
  | rational n d, trivial x =>
    if d = 0 then (trivial x).isZero else decide (x * d = n)
  | trivial x, rational n d =>
    if d = 0 then (trivial x).isZero else decide (x * d = n)
  | rational n d, rational n' d' =>
    if d = 0 then (rational n' d').isZero
    else if d' = 0 then (rational n d).isZero
    else decide (n * d' = d * n')

/-- Models halo2_proofs/src/plonk/assigned.rs lines 76-83. -/
def neg : Fraction F → Fraction F
  | zero => zero
  | trivial x => trivial (-x)
  | rational n d => rational (-n) d

/-- Models halo2_proofs/src/plonk/assigned.rs lines 94-122. -/
def add (a b : Fraction F) : Fraction F :=
  match a, b with
  | zero, x => x
  | x, zero => x
  | trivial x, trivial y => trivial (x + y)
  | rational n d, trivial x => if d = 0 then trivial x else rational (n + d * x) d
  | trivial x, rational n d => if d = 0 then trivial x else rational (n + d * x) d
  | rational n d, rational n' d' =>
    if d = 0 then rational n' d'
    else if d' = 0 then rational n d
    else rational (n * d' + d * n') (d * d')

/-- Models halo2_proofs/src/plonk/assigned.rs lines 173-175. -/
def sub (a b : Fraction F) : Fraction F := a.add b.neg

/-- Models halo2_proofs/src/plonk/assigned.rs lines 227-245. -/
def mul (a b : Fraction F) : Fraction F :=
  match a, b with
  | zero, _ => zero
  | _, zero => zero
  | trivial x, trivial y => trivial (x * y)
  | rational n d, trivial x => rational (n * x) d
  | trivial x, rational n d => rational (n * x) d
  | rational n d, rational n' d' => rational (n * n') (d * d')

/-- Models halo2_proofs/src/plonk/assigned.rs lines 281-287. -/
def numerator : Fraction F → F
  | zero => 0
  | trivial x => x
  | rational n _ => n

/-- Models halo2_proofs/src/plonk/assigned.rs lines 290-296. -/
def denominator : Fraction F → Option F
  | rational _ d => some d
  | _ => none

/-- Models halo2_proofs/src/plonk/assigned.rs lines 312-320. -/
def double : Fraction F → Fraction F
  | zero => zero
  | trivial x => trivial (x + x)
  | rational n d => rational (n + n) d

/-- Models halo2_proofs/src/plonk/assigned.rs lines 324-332. -/
def square : Fraction F → Fraction F
  | zero => zero
  | trivial x => trivial (x * x)
  | rational n d => rational (n * n) (d * d)

/-- Models halo2_proofs/src/plonk/assigned.rs lines 336-338. -/
def cube (a : Fraction F) : Fraction F := a.square.mul a

/-- Models halo2_proofs/src/plonk/assigned.rs lines 341-347. -/
def invert : Fraction F → Fraction F
  | zero => zero
  | trivial x => rational 1 x
  | rational n d => rational d n

/-- Models halo2_proofs/src/plonk/assigned.rs lines 353-364. -/
def evaluate : Fraction F → F
  | zero => 0
  | trivial x => x
  | rational n d => if d = 1 then n else n * (if d = 0 then 0 else d⁻¹)

end Fraction

section

variable {F : Type} [Field F] [DecidableEq F]

/-- The first loop of `batch_invert` of the crate `ff` (not in the repository; called in
halo2_proofs/src/poly.rs line 201): the products of the elements before each, and that of all. Zeros
are left out. -/
def batchProducts : List F → F → List (F × F) × F
  | [], acc => ([], acc)
  | p :: ps, acc =>
    let r := batchProducts ps (if p = 0 then acc else acc * p)
    ((acc, p) :: r.1, r.2)

/-- The second loop of `batch_invert`, from the last element to the first. -/
def batchBack : List (F × F) → F → List F × F
  | [], acc => ([], acc)
  | (t, p) :: ps, acc =>
    let r := batchBack ps acc
    ((if p = 0 then p else t * r.2) :: r.1, if p = 0 then r.2 else r.2 * p)

/-- `batch_invert` of the crate `ff`, with its `unwrap` of the inverse of the product. -/
def batchInvert (l : List F) : Except Panic (List F) :=
  let r := batchProducts l 1
  if r.2 = 0 then .error .unwrap else .ok (batchBack r.1 r.2⁻¹).1

/-- Inverted denominators put back in place: the elements of `l` that are there are overwritten one
after the other. Models the iterator of mutable references of halo2_proofs/src/poly.rs lines 193-201. -/
def putBack : List (Option F) → List F → List (Option F) × List F
  | [], inv => ([], inv)
  | none :: ds, inv => let r := putBack ds inv; (none :: r.1, r.2)
  | some d :: ds, [] => let r := putBack ds []; (some d :: r.1, r.2)
  | some _ :: ds, i :: inv => let r := putBack ds inv; (some i :: r.1, r.2)

/-- The same through several lists. -/
def putBackAll : List (List (Option F)) → List F → List (List (Option F))
  | [], _ => []
  | f :: fs, inv => let r := putBack f inv; r.1 :: putBackAll fs r.2

/-- `Polynomial::invert`. Models halo2_proofs/src/poly.rs lines 212-228. -/
def invertPoly (values : List (Fraction F)) (inv : List F) : Except Panic (List F) :=
  if inv.length ≠ values.length then .error .assert
  else .ok ((values.zip inv).map fun a => a.1.numerator * a.2)

/-- `batch_invert_assigned`. Models halo2_proofs/src/poly.rs lines 181-210. -/
def batchInvertAssigned (assigned : List (List (Fraction F))) : Except Panic (List (List F)) := do
  let denominators := assigned.map fun f => f.map Fraction.denominator
  let inv ← batchInvert (denominators.flatMap fun f => f.filterMap id)
  (assigned.zip (putBackAll denominators inv)).mapM fun a => invertPoly a.1 (a.2.map (·.getD 1))

end

end Verif
