import Verif.Model.Ecc
import Verif.Model.Pasta

/-!
Multiplication of a point by a number in circuits: `halo2_gadgets/src/ecc/chip/mul.rs` and
`halo2_gadgets/src/ecc/chip/mul/`. The code is for Pallas, that is for the field of `pallasBase`, of which the
numbers 255, 254, 130 and `T_Q` come. Values that are unknown when keys are generated are `none`.
-/

namespace Verif.Gadget

open FloorPlanner (Call)

/-- `T_Q`: the order of Pallas is 2^254 + `T_Q`. Models ecc/chip/constants.rs lines 30-32. -/
def tQ : Nat := 45560315531506369815346746415080538113

variable {F : Type}

/-- `DoubleAndAdd`. Models ecc/chip/mul/incomplete.rs lines 14-25. -/
structure DoubleAndAdd where
  xA : Nat
  xP : Nat
  lambda1 : Nat
  lambda2 : Nat

/-- Models ecc/chip/mul/incomplete.rs lines 28-38. -/
def DoubleAndAdd.xR (c : DoubleAndAdd) (rot : Int) : Expr F :=
  (Expr.advice c.lambda1 rot).square - Expr.advice c.xA rot - Expr.advice c.xP rot

/-- `Y_A`. Models ecc/chip/mul/incomplete.rs lines 40-54. -/
def DoubleAndAdd.yA2 (c : DoubleAndAdd) (rot : Int) : Expr F :=
  (Expr.advice c.lambda1 rot + Expr.advice c.lambda2 rot) * (Expr.advice c.xA rot - c.xR rot)

/-- `incomplete::Config`. Models ecc/chip/mul/incomplete.rs lines 57-71. -/
structure MulIncomplete where
  qMul1 : Selector
  qMul2 : Selector
  qMul3 : Selector
  z : Nat
  da : DoubleAndAdd
  yP : Nat

namespace MulIncomplete

/-- `y_a`; `TWO_INV` is the inverse of 2. Models ecc/chip/mul/incomplete.rs lines 112-115. -/
def yA [Field F] (c : MulIncomplete) (rot : Int) : Expr F := .scaled (c.da.yA2 rot) (2 : F)⁻¹

/-- `for_loop`. Models ecc/chip/mul/incomplete.rs lines 117-168. -/
def forLoop [Field F] (c : MulIncomplete) (yNext : Expr F) : List (Expr F) :=
  let one := Expr.const 1
  let zCur := Expr.advice c.z 0
  let zPrev := Expr.advice c.z (-1)
  let xACur := Expr.advice c.da.xA 0
  let xANext := Expr.advice c.da.xA 1
  let xPCur := Expr.advice c.da.xP 0
  let yPCur := Expr.advice c.yP 0
  let lambda1 := Expr.advice c.da.lambda1 0
  let lambda2 := Expr.advice c.da.lambda2 0
  let yACur := c.yA 0
  let k := zCur - .scaled zPrev 2
  [ boolCheck k,
    lambda1 * (xACur - xPCur) - yACur + (.scaled k 2 - one) * yPCur,
    lambda2.square - xANext - c.da.xR 0 - xACur,
    lambda2 * (xACur - xANext) - yACur - yNext ]

/-- The gates. Models ecc/chip/mul/incomplete.rs lines 105-217. -/
def chip [Field F] (c : MulIncomplete) : Chip F where
  gates := [
    (c.qMul1, [.advice c.da.lambda1 0 - c.yA 1]),
    (c.qMul2, [.advice c.da.xP 0 - .advice c.da.xP 1, .advice c.yP 0 - .advice c.yP 1] ++ c.forLoop (c.yA 1)),
    (c.qMul3, c.forLoop (.advice c.da.lambda1 1))]

/-- What is kept from step to step: the cell of the first coordinate, the second coordinate and the cell of the
running sum. -/
structure State (F : Type) where
  xA : Assigned F
  yA : Option F
  z : Assigned F

/-- One iteration of the loop in row `row`. The coordinates of the base are assigned, not copied. Models
ecc/chip/mul/incomplete.rs lines 298-360. -/
def step [Field F] (c : MulIncomplete) (region row : Nat) (xP yP : Option F) (s : State F) (k : Option Bool) :
    Calls F × State F :=
  let zVal : Option F := do
    let z ← s.z.value
    let k ← k
    pure (2 * z + (k.toNat : F))
  let y : Option F := do
    let y ← yP
    let k ← k
    pure (if k then y else -y)
  let lambda1 : Option F := do
    let yA ← s.yA
    let y ← y
    let xA ← s.xA.value
    let xP ← xP
    pure ((yA - y) * (xA - xP)⁻¹)
  let xR : Option F := do
    let l ← lambda1
    let xA ← s.xA.value
    let xP ← xP
    pure (l ^ 2 - xA - xP)
  let lambda2 : Option F := do
    let l ← lambda1
    let yA ← s.yA
    let xA ← s.xA.value
    let xR ← xR
    pure (yA * 2 * (xA - xR)⁻¹ - l)
  let xNew : Option F := do
    let l ← lambda2
    let xA ← s.xA.value
    let xR ← xR
    pure (l ^ 2 - xA - xR)
  let yNew : Option F := do
    let l ← lambda2
    let xA ← s.xA.value
    let x ← xNew
    let yA ← s.yA
    pure (l * (xA - x) - yA)
  ([.advice c.z row zVal, .advice c.da.xP row xP, .advice c.yP row yP, .advice c.da.lambda1 row lambda1,
    .advice c.da.lambda2 row lambda2, .advice c.da.xA (row + 1) xNew],
    ⟨⟨⟨region, row + 1, .advice c.da.xA⟩, xNew⟩, yNew, ⟨⟨region, row, .advice c.z⟩, zVal⟩⟩)

/-- The loop, from row `row` on. Models ecc/chip/mul/incomplete.rs lines 293-361. -/
def steps [Field F] (c : MulIncomplete) (region : Nat) (xP yP : Option F) : Nat → State F → List (Option Bool) →
    Calls F × State F × List (Assigned F)
  | _, s, [] => ([], s, [])
  | row, s, k :: ks =>
    let (calls, s) := c.step region row xP yP s k
    let (more, t, zs) := c.steps region xP yP (row + 1) s ks
    (calls ++ more, t, s.z :: zs)

/-- The calls that enable selectors, for `n` bits. Models ecc/chip/mul/incomplete.rs lines 253-266. -/
def enables (c : MulIncomplete) (n offset : Nat) : Calls F :=
  .enable c.qMul1 offset :: ((List.range (n - 1)).map fun idx => .enable c.qMul2 (offset + 1 + idx)) ++
    [.enable c.qMul3 (offset + 1 + n - 1)]

/-- `double_and_add`, for `n` bits. Models ecc/chip/mul/incomplete.rs lines 219-372. -/
def doubleAndAdd [Field F] [DecidableEq F] (c : MulIncomplete) (n region offset : Nat) (base : EccPoint F)
    (bits : List (Option Bool)) (acc : EccPoint F) (z : Assigned F) :
    Except Stop (Calls F × EccPoint F × List (Assigned F)) := do
  assert (bits.length == n)
  if (zip4 acc.x.value acc.y.value base.x.value base.y.value).any fun (xA, yA, xP, yP) =>
      (xP = 0 ∧ yP = 0) ∨ (xA = 0 ∧ yA = 0) ∨ xP = xA then
    .error .error
  else
    let z := copyAdvice region z c.z offset
    let x := copyAdvice region acc.x c.da.xA (offset + 1)
    let y := copyAdvice region acc.y c.da.lambda1 offset
    let (calls, s, zs) := c.steps region base.x.value base.y.value (offset + 1) ⟨x.2, y.2.value, z.2⟩ bits
    let last := assignAdvice region c.da.lambda1 (offset + 1 + n) s.yA
    return (c.enables n offset ++ z.1 ++ x.1 ++ y.1 ++ calls ++ last.1, ⟨s.xA, last.2⟩, zs)

end MulIncomplete

/-- `complete::Config`. Models ecc/chip/mul/complete.rs lines 14-22. -/
structure MulComplete where
  qDecompose : Selector
  z : Nat
  add : AddComplete

namespace MulComplete

/-- The gate. Models ecc/chip/mul/complete.rs lines 43-83. -/
def chip [Ring F] (c : MulComplete) : Chip F where
  gates :=
    let zPrev := Expr.advice c.z (-1)
    let zNext := Expr.advice c.z 1
    let k := zNext - .const 2 * zPrev
    let baseY := Expr.advice c.z 0
    let yP := Expr.advice c.add.yP (-1)
    [(c.qDecompose, [boolCheck k, ternary k (baseY - yP) (baseY + yP)])]

/-- One iteration of the loop in rows `row` and `row + 1`. Models ecc/chip/mul/complete.rs lines 130-194. -/
def step [Field F] [DecidableEq F] (c : MulComplete) (region row : Nat) (base : EccPoint F) (acc : EccPoint F)
    (z : Assigned F) (k : Option Bool) : Calls F × EccPoint F × Assigned F :=
  let zVal : Option F := do
    let z ← z.value
    let k ← k
    pure (z * 2 + (k.toNat : F))
  let z := assignAdvice region c.z (row + 2) zVal
  let baseY := copyAdvice region base.y c.z (row + 1)
  let yVal : Option F := do
    let y ← baseY.2.value
    let k ← k
    pure (if k then y else -y)
  let y := assignAdvice region c.add.yP row yVal
  let tmp := c.add.assign region ⟨base.x, y.2⟩ acc row
  let res := c.add.assign region acc tmp.2 (row + 1)
  (z.1 ++ baseY.1 ++ y.1 ++ tmp.1 ++ res.1, res.2, z.2)

/-- The loop, from row `row` on. Models ecc/chip/mul/complete.rs lines 126-195. -/
def steps [Field F] [DecidableEq F] (c : MulComplete) (region : Nat) (base : EccPoint F) : Nat → EccPoint F →
    Assigned F → List (Option Bool) → Calls F × EccPoint F × List (Assigned F)
  | _, acc, _, [] => ([], acc, [])
  | row, acc, z, k :: ks =>
    let (calls, acc, z) := c.step region row base acc z k
    let (more, acc, zs) := c.steps region base (row + 2) acc z ks
    (calls ++ more, acc, z :: zs)

/-- `assign_region`. Models ecc/chip/mul/complete.rs lines 85-196. -/
def assign [Field F] [DecidableEq F] (c : MulComplete) (region offset : Nat) (bits : List (Option Bool))
    (base acc : EccPoint F) (z : Assigned F) : Except Stop (Calls F × EccPoint F × List (Assigned F)) := do
  assert (bits.length == 3)
  let z := copyAdvice region z c.z offset
  let (calls, acc, zs) := c.steps region base offset acc z.2 bits
  return ((List.range 3).map (fun row => .enable c.qDecompose (2 * row + offset + 1)) ++ z.1 ++ calls, acc, zs)

end MulComplete

/-- `overflow::Config`. Models ecc/chip/mul/overflow.rs lines 17-25. -/
structure MulOverflow where
  qOverflow : Selector
  lookup : RangeCheck
  advice0 : Nat
  advice1 : Nat
  advice2 : Nat

namespace MulOverflow

variable {p : Nat}

/-- The gate, and the range check. Models ecc/chip/mul/overflow.rs lines 48-98. -/
def chip (c : MulOverflow) : Chip (ZMod p) where
  gates :=
    let one := Expr.const (1 : ZMod p)
    let twoPow124 := Expr.const ((2 ^ 124 : Nat) : ZMod p)
    let twoPow130 := twoPow124 * Expr.const ((2 ^ 6 : Nat) : ZMod p)
    let z0 := Expr.advice c.advice0 (-1)
    let z130 := Expr.advice c.advice0 0
    let eta := Expr.advice c.advice0 1
    let k254 := Expr.advice c.advice1 (-1)
    let alpha := Expr.advice c.advice1 0
    let sMinusLo130 := Expr.advice c.advice1 1
    let s := Expr.advice c.advice2 0
    let tq := Expr.const ((tQ : Nat) : ZMod p)
    (c.qOverflow, [
      s - (alpha + k254 * twoPow130),
      z0 - alpha - tq,
      k254 * (z130 - twoPow124),
      k254 * sMinusLo130,
      (one - k254) * (one - z130 * eta) * sMinusLo130]) :: (c.lookup.chip 10).gates
  lookups := (c.lookup.chip 10).lookups

/-- `overflow_check`, in regions `start` to `start + 2`. Models ecc/chip/mul/overflow.rs lines 100-207. -/
def check (c : MulOverflow) (start : Nat) (alpha : Assigned (ZMod p)) (zs : List (Assigned (ZMod p))) :
    Except Stop (List (Calls (ZMod p))) := do
  match zs[0]?, zs[130]?, zs[254]? with
  | some z0, some z130, some k254 =>
    let sVal : Option (ZMod p) := do
      let a ← alpha.value
      let k ← k254.value
      pure (a + k * ((2 ^ 65 : Nat) : ZMod p) ^ 2)
    let s := assignAdvice start c.advice0 0 sVal
    let (calls, sums) ← c.lookup.copyCheck 10 (start + 1) s.2 13 false
    match sums.getLast? with
    | some sMinusLo130 =>
      let r := start + 2
      return [s.1, calls,
        .enable c.qOverflow 1 :: ((copyAdvice r z0 c.advice0 0).1 ++ (copyAdvice r z130 c.advice0 1).1 ++
          [.advice c.advice0 2 (z130.value.map (·⁻¹))] ++ (copyAdvice r k254 c.advice1 0).1 ++
          (copyAdvice r alpha c.advice1 1).1 ++ (copyAdvice r sMinusLo130 c.advice1 2).1 ++
          (copyAdvice r s.2 c.advice2 1).1)]
    | none => .error .panic
  | _, _, _ => .error .panic

end MulOverflow

/-- `mul::Config`. Models ecc/chip/mul.rs lines 51-65. -/
structure Mul where
  qLsb : Selector
  add : AddComplete
  hi : MulIncomplete
  lo : MulIncomplete
  complete : MulComplete
  overflow : MulOverflow

namespace Mul

/-- The columns are those of `configure`, of ten given ones, with complete addition in the first nine. Models
ecc/chip/mul.rs lines 74-91 and ecc/chip.rs lines 276-282. -/
structure Configured (c : Mul) (advices : Nat → Nat) : Prop where
  add : c.add = ⟨c.add.qAdd, advices 4, advices 0, advices 1, advices 2, advices 3, advices 5, advices 6, advices 7, advices 8⟩
  hi : c.hi = ⟨c.hi.qMul1, c.hi.qMul2, c.hi.qMul3, advices 9, ⟨advices 3, advices 0, advices 4, advices 5⟩, advices 1⟩
  lo : c.lo = ⟨c.lo.qMul1, c.lo.qMul2, c.lo.qMul3, advices 6, ⟨advices 7, advices 0, advices 8, advices 2⟩, advices 1⟩
  complete : c.complete = ⟨c.complete.qDecompose, advices 9, c.add⟩
  overflow : c.overflow = ⟨c.overflow.qOverflow, c.overflow.lookup, advices 6, advices 7, advices 8⟩

variable {p : Nat}

/-- The gate for the last bit. Models ecc/chip/mul.rs lines 132-165. -/
def lsbGate [Ring F] (c : Mul) : Selector × List (Expr F) :=
  let z1 := Expr.advice c.complete.z 0
  let z0 := Expr.advice c.complete.z 1
  let xP := Expr.advice c.add.xP 0
  let yP := Expr.advice c.add.yP 0
  let baseX := Expr.advice c.add.xP 1
  let baseY := Expr.advice c.add.yP 1
  let lsb := z0 - .scaled z1 2
  (c.qLsb, [boolCheck lsb, ternary lsb xP (xP - baseX), ternary lsb yP (yP + baseY)])

/-- All gates. Models `configure`, ecc/chip/mul.rs lines 68-130. -/
def chip [Fact p.Prime] (c : Mul) : Chip (ZMod p) where
  gates := c.lsbGate :: (c.add.chip.gates ++ c.hi.chip.gates ++ c.lo.chip.gates ++ c.complete.chip.gates ++
    c.overflow.chip.gates)
  lookups := c.overflow.chip.lookups

/-- `decompose_for_scalar_mul`: 255 bits, the highest first. Models ecc/chip/mul.rs lines 424-461. The sum does
not overflow 256 bits for a field of 255 bits. -/
def decompose (alpha : Option (ZMod p)) : List (Option Bool) :=
  ((List.range 255).map fun i => alpha.map fun a => (a.val + tQ).testBit i).reverse

/-- `process_lsb`. Models ecc/chip/mul.rs lines 307-388. -/
def processLsb [Fact p.Prime] (c : Mul) (region offset : Nat) (base acc : EccPoint (ZMod p)) (z1 : Assigned (ZMod p))
    (lsb : Option Bool) : Calls (ZMod p) × EccPoint (ZMod p) × Assigned (ZMod p) :=
  let zVal : Option (ZMod p) := do
    let z ← z1.value
    let k ← lsb
    pure (z * 2 + (k.toNat : ZMod p))
  let z0 := assignAdvice region c.complete.z (offset + 1) zVal
  let baseX := copyAdvice region base.x c.add.xP (offset + 1)
  let baseY := copyAdvice region base.y c.add.yP (offset + 1)
  let xVal : Option (ZMod p) := lsb.bind fun k => if k then some 0 else base.x.value
  let yVal : Option (ZMod p) := lsb.bind fun k => if k then some 0 else base.y.value.map (- ·)
  let x := assignAdvice region c.add.xP offset xVal
  let y := assignAdvice region c.add.yP offset yVal
  let res := c.add.assign region ⟨x.2, y.2⟩ acc offset
  (.enable c.qLsb offset :: (z0.1 ++ baseX.1 ++ baseY.1 ++ x.1 ++ y.1 ++ res.1), res.2, z0.2)

/-- `assign`, in regions `start` to `start + 3`: the calls of each and the product. Models ecc/chip/mul.rs lines
167-305, without the check made in tests. -/
def assign [Fact p.Prime] (c : Mul) (start : Nat) (alpha : Assigned (ZMod p)) (base : EccPoint (ZMod p)) :
    Except Stop (List (Calls (ZMod p)) × EccPoint (ZMod p)) := do
  let bits := decompose alpha.value
  let acc := c.add.assign start base base 0
  let zInit : Assigned (ZMod p) := ⟨⟨start, 1, .advice c.hi.z⟩, some 0⟩
  let (hi, accHi, zsHi) ← c.hi.doubleAndAdd 125 start 1 base (bits.take 125) acc.2 zInit
  let (lo, accLo, zsLo) ← c.lo.doubleAndAdd 126 start 1 base ((bits.drop 125).take 126) accHi (zsHi.getLast?.getD zInit)
  let (co, accCo, zsCo) ← c.complete.assign start (1 + 126 + 2) ((bits.drop 251).take 3) base accLo
    (zsLo.getLast?.getD zInit)
  let (ls, result, z0) := c.processLsb start (1 + 126 + 2 + 3 * 2) base accCo (zsCo.getLast?.getD zInit)
    ((bits.drop 254).head?.getD none)
  let zs := (zInit :: (zsHi ++ zsLo ++ zsCo ++ [z0])).reverse
  assert (zs.length == 256)
  let over ← c.overflow.check (start + 1) alpha zs
  return ((acc.1 ++ [.constant c.hi.z 1 (some 0)] ++ hi ++ lo ++ co ++ ls) :: over, result)

end Mul

end Verif.Gadget
