import Verif.Model.Curve
import Verif.Model.EccMul

/-!
Multiplication of a fixed point by a number in circuits: `halo2_gadgets/src/ecc/chip/mul_fixed.rs` and
`halo2_gadgets/src/ecc/chip/mul_fixed/`. The code is for Pallas; here `p` is the number of elements of its base field,
`q` that of its scalar field, and `b` the constant of the curve. Values that are unknown when keys are generated are
`none`.
-/

namespace Verif.Gadget

open FloorPlanner (Call)

variable {p : Nat} [Fact p.Prime]

/-- `FixedPoint`: the coordinates of the generator, the coefficients of the interpolation of the first coordinates, the
numbers `z` and the roots `u`, for each window. Models ecc/chip.rs lines 212-229. The roots are elements here and bytes
there, which are unwrapped in ecc/chip/mul_fixed.rs line 305. -/
structure FixedBase (p : Nat) where
  x : ZMod p
  y : ZMod p
  lagrange : List (List (ZMod p))
  z : List Nat
  u : List (List (ZMod p))

/-- The multiple of the generator as it is computed outside the circuit, (0, 0) for the identity. Models
ecc/chip/mul_fixed.rs lines 273-274. The arithmetic is of the crate pasta_curves, which is not part of the repository;
that of `halo2curves` stands for it. -/
def FixedBase.multiple (base : FixedBase p) (k : Nat) : Aff (ZMod p) :=
  (Jac.mul ⟨base.x, base.y, 1⟩ (leBytes 32 k)).toAffine

/-- `mul_fixed::Config`. Models ecc/chip/mul_fixed.rs lines 37-54. -/
structure MulFixed where
  runningSum : RunningSum
  lagrange : Nat → Nat
  fixedZ : Nat
  window : Nat
  u : Nat
  add : AddComplete
  addIncomplete : AddIncomplete

namespace MulFixed

/-- What `configure` makes sure of or asserts. Models ecc/chip/mul_fixed.rs lines 70-107. -/
def Configured (c : MulFixed) : Prop :=
  c.runningSum.z = c.window ∧ c.add.xP = c.addIncomplete.xP ∧ c.add.yP = c.addIncomplete.yP ∧
  c.window ≠ c.add.xQR ∧ c.window ≠ c.add.yQR ∧ c.u ≠ c.add.xQR ∧ c.u ≠ c.add.yQR

/-- The power of an expression. Models ecc/chip/mul_fixed.rs lines 145-151. -/
def power (window : Expr (ZMod p)) (n : Nat) : Expr (ZMod p) :=
  (List.range n).foldl (fun acc _ => acc * window) (Expr.const 1)

/-- `coords_check`. Models ecc/chip/mul_fixed.rs lines 133-174. -/
def coordsCheck (c : MulFixed) (b : ZMod p) (window : Expr (ZMod p)) : List (Expr (ZMod p)) :=
  let yP := Expr.advice c.add.yP 0
  let xP := Expr.advice c.add.xP 0
  let z := Expr.fixed c.fixedZ 0
  let u := Expr.advice c.u 0
  let interpolated := (List.range 8).foldl
    (fun acc k => acc + power window k * Expr.fixed (c.lagrange k) 0) (Expr.const 0)
  [interpolated - xP, u.square - yP - z, yP.square - xP.square * xP - Expr.const b]

/-- The gates: of the running sum, of the coordinates with a running sum, and of the two additions. Models
ecc/chip/mul_fixed.rs lines 72-73 and 109-131; the additions are configured before. -/
def chip (c : MulFixed) (b : ZMod p) : Except Stop (Chip (ZMod p)) := do
  let sum ← c.runningSum.chip 3
  let word := Expr.advice c.window 0 - .scaled (Expr.advice c.window 1) 8
  return { gates := sum.gates ++ [(c.runningSum.qRangeCheck, c.coordsCheck b word)] ++
    (c.add.chip (F := ZMod p)).gates ++ (c.addIncomplete.chip (F := ZMod p)).gates }

/-- `assign_fixed_constants`. Models ecc/chip/mul_fixed.rs lines 198-255. The assertions are made when the values are
asked for, which is the case when keys are generated. There each window has an array of 8 coefficients. -/
def assignFixed (c : MulFixed) (n offset : Nat) (toggle : Selector) (base : FixedBase p) :
    Except Stop (Calls (ZMod p)) := do
  assert (base.lagrange.length == n)
  assert (base.z.length == n)
  return (List.range n).flatMap fun window =>
    .enable toggle (window + offset) ::
      (List.range 8).map (fun k => .fixed (c.lagrange k) (window + offset)
        (some ((base.lagrange.getD window []).getD k 0))) ++
      [.fixed c.fixedZ (window + offset) (some ((base.z.getD window 0 : Nat) : ZMod p))]

/-- The coordinates of a multiple; both are asserted not to be zero. That the multiple is the identity panics in line 274
there and by the first assertion here. Models ecc/chip/mul_fixed.rs lines 272-299. -/
def mulB (base : FixedBase p) (scalar : Nat) : Except Stop (ZMod p × ZMod p) := do
  let r := base.multiple scalar
  assert (r.x != 0)
  assert (r.y != 0)
  return (r.x, r.y)

/-- `base_u[w][k]`. Models ecc/chip/mul_fixed.rs line 305. -/
def rootOf (base : FixedBase p) (w k : Nat) : Except Stop (ZMod p) :=
  match base.u[w]?.bind (·[k]?) with
  | some u => .ok u
  | none => .error .panic

/-- `process_window`, with the multiple `scalar`. Models ecc/chip/mul_fixed.rs lines 257-309. -/
def processWindow (c : MulFixed) (n region offset w : Nat) (base : FixedBase p) (k scalar : Option Nat) :
    Except Stop (Calls (ZMod p) × EccPoint (ZMod p)) := do
  assert (base.u.length == n)
  let mulB ← onKnown scalar (mulB base)
  let u ← onKnown k (rootOf base w)
  let x := assignAdvice region c.add.xP (offset + w) (mulB.map Prod.fst)
  let y := assignAdvice region c.add.yP (offset + w) (mulB.map Prod.snd)
  return (x.1 ++ y.1 ++ [.advice c.u (offset + w) u], ⟨x.2, y.2⟩)

variable {q : Nat}

/-- `windows_usize` of one window. Models ecc/chip/mul_fixed.rs lines 481-502. -/
def index (k : ZMod q) : Nat := k.val % 8

/-- `process_lower_bits`. Models ecc/chip/mul_fixed.rs lines 365-380. -/
def processLower (c : MulFixed) (n region offset w : Nat) (base : FixedBase p) (k : Option (ZMod q)) :
    Except Stop (Calls (ZMod p) × EccPoint (ZMod p)) :=
  c.processWindow n region offset w base (k.map index) (k.map fun k => ((k + 2) * 8 ^ w).val)

/-- `process_msb`. Models ecc/chip/mul_fixed.rs lines 382-410. -/
def processMsb (c : MulFixed) (n region offset : Nat) (base : FixedBase p) (k : Option (ZMod q)) :
    Except Stop (Calls (ZMod p) × EccPoint (ZMod p)) :=
  let offsetAcc := (List.range (n - 1)).foldl (fun acc w => acc + 2 ^ (3 * w + 1)) (0 : ZMod q)
  c.processWindow n region offset (n - 1) base (k.map index) (k.map fun k => (k * 8 ^ (n - 1) - offsetAcc).val)

/-- The loop of `add_incomplete`, from window `w` on. Models ecc/chip/mul_fixed.rs lines 339-361. -/
def addWindows (c : MulFixed) (n region offset : Nat) (base : FixedBase p) : Nat → EccPoint (ZMod p) →
    List (Option (ZMod q)) → Except Stop (Calls (ZMod p) × EccPoint (ZMod p))
  | _, acc, [] => .ok ([], acc)
  | w, acc, k :: ks => do
    let (c1, mulB) ← c.processLower n region offset w base k
    let (c2, acc) ← c.addIncomplete.assign region mulB acc (offset + w)
    let (c3, acc) ← c.addWindows n region offset base (w + 1) acc ks
    return (c1 ++ c2 ++ c3, acc)

/-- `assign_region_inner`, with `n` windows. Models ecc/chip/mul_fixed.rs lines 176-196, 310-325 and 327-338. -/
def inner (c : MulFixed) (n region offset : Nat) (base : FixedBase p) (toggle : Selector) (ks : List (Option (ZMod q))) :
    Except Stop (Calls (ZMod p) × EccPoint (ZMod p) × EccPoint (ZMod p)) := do
  let fixed ← c.assignFixed n offset toggle base
  match ks[0]?, ks[n - 1]? with
  | some first, some last =>
    let (c0, acc) ← c.processLower n region offset 0 base first
    assert (ks.length == n)
    let (c1, acc) ← c.addWindows n region offset base 1 acc ((ks.take (n - 1)).drop 1)
    let (c2, mulB) ← c.processMsb n region offset base last
    return (fixed ++ c0 ++ c1 ++ c2, acc, mulB)
  | _, _ => .error .panic

/-- `windows_field` for windows in cells of their own; what is read is unwrapped. Models ecc/chip/mul_fixed.rs lines
465-477. -/
def cellWindows (cells : List (Assigned (ZMod p))) : Except Stop (List (Option (ZMod q))) :=
  cells.mapM fun a => onKnown a.value fun v => do
    assert (v.val < q)
    return ((v.val : Nat) : ZMod q)

/-- `windows_field` for a running sum. Models ecc/chip/mul_fixed.rs lines 443-464. -/
def sumWindows (zs : List (Assigned (ZMod p))) : Except Stop (List (Option (ZMod q))) :=
  (zs.zip (zs.drop 1)).mapM fun z => onKnown (do let cur ← z.1.value; let next ← z.2.value; return cur - next * 8) fun v => do
    assert (v.val < q)
    return ((v.val : Nat) : ZMod q)

end MulFixed

/-- `full_width::Config`. Models ecc/chip/mul_fixed/full_width.rs lines 15-19. -/
structure MulFull where
  qFull : Selector
  sup : MulFixed

namespace MulFull

/-- All gates. Models ecc/chip/mul_fixed/full_width.rs lines 36-53. -/
def chip (c : MulFull) (b : ZMod p) : Except Stop (Chip (ZMod p)) := do
  let sup ← c.sup.chip b
  let window := Expr.advice c.sup.window 0
  return { sup with gates := sup.gates ++ [(c.qFull, c.sup.coordsCheck b window ++ [rangeCheck window 8])] }

variable {q : Nat}

/-- `witness`, with `n` windows; `bits` is the number of bits of a scalar. Models
ecc/chip/mul_fixed/full_width.rs lines 55-116. -/
def witness (c : MulFull) (bits n region offset : Nat) (scalar : Option (ZMod q)) :
    Except Stop (Calls (ZMod p) × List (Assigned (ZMod p))) := do
  let windows ← onKnown scalar fun s => decomposeWord s bits 3
  let windows ← transposeVec windows n
  let cells := windows.zipIdx.map fun (k, idx) => assignAdvice region c.sup.window (offset + idx)
    (k.map fun (k : Nat) => (k : ZMod p))
  return ((List.range n).map (fun idx => .enable c.qFull (offset + idx)) ++ cells.flatMap Prod.fst, cells.map Prod.snd)

/-- `assign`, in regions `start` and `start + 1`, of a scalar that is not yet in windows; with windows there is a
`todo!`. `NUM_WINDOWS` is 85 and the scalar has 255 bits. Models ecc/chip/mul_fixed/full_width.rs lines 118-170,
without the check made in tests. -/
def assign (c : MulFull) (start : Nat) (scalar : Option (ZMod q)) (base : FixedBase p) :
    Except Stop (List (Calls (ZMod p)) × EccPoint (ZMod p) × List (Assigned (ZMod p))) := do
  let (c0, windows) ← c.witness 255 85 start 0 scalar
  let ks ← MulFixed.cellWindows (q := q) windows
  let (c1, acc, mulB) ← c.sup.inner 85 start 0 base c.qFull ks
  let r := c.sup.add.assign (start + 1) mulB acc 0
  return ([c0 ++ c1, r.1], r.2, windows)

/-- `EccScalarFixed`: the value, and the cells of the windows once there are any. Models ecc/chip.rs lines 333-339. -/
structure ScalarFixed (p q : Nat) where
  value : Option (ZMod q)
  windows : Option (List (Assigned (ZMod p)))

/-- `witness_scalar_fixed`. Models ecc/chip.rs lines 479-489. -/
def ScalarFixed.new (value : Option (ZMod q)) : ScalarFixed p q := ⟨value, none⟩

/-- `mul_fixed`, which is `FixedPoint::mul`: with the product it returns the scalar with its windows, and there is a `todo!`
for a scalar that has them. Models ecc.rs lines 487-508, ecc/chip.rs lines 556-568 and
ecc/chip/mul_fixed/full_width.rs lines 118-170. -/
def mul (c : MulFull) (start : Nat) (scalar : ScalarFixed p q) (base : FixedBase p) :
    Except Stop (List (Calls (ZMod p)) × EccPoint (ZMod p) × ScalarFixed p q) :=
  match scalar.windows with
  | some _ => .error .panic
  | none => do
    let (regions, out, windows) ← c.assign start scalar.value base
    return (regions, out, ⟨scalar.value, some windows⟩)

end MulFull

end Verif.Gadget
