import Verif.Model.EccFixed

/-!
Multiplication of a fixed point by a signed number of 64 bits and by an element of the base field:
`halo2_gadgets/src/ecc/chip/mul_fixed/short.rs` and `halo2_gadgets/src/ecc/chip/mul_fixed/base_field_elem.rs`. Here `p` is
the number of elements of the base field and `q` that of the scalar field.
-/

namespace Verif.Gadget

open FloorPlanner (Call)

variable {p q : Nat} [Fact p.Prime]

/-- `short::Config`. Models ecc/chip/mul_fixed/short.rs lines 13-18. -/
structure MulShort where
  qShort : Selector
  sup : MulFixed

namespace MulShort

/-- All gates. Models ecc/chip/mul_fixed/short.rs lines 35-79. -/
def chip (c : MulShort) (b : ZMod p) : Except Stop (Chip (ZMod p)) := do
  let sup ← c.sup.chip b
  let yP := Expr.advice c.sup.add.yP 0
  let yA := Expr.advice c.sup.add.yQR 0
  let last := Expr.advice c.sup.u 0
  let sign := Expr.advice c.sup.window 0
  return { sup with gates := sup.gates ++ [(c.qShort,
    [boolCheck last, sign.square - .const 1, (yP - yA) * (yP + yA), sign * yP - yA])] }

/-- `assign`, in regions `start` and `start + 1`, of a number that is not yet decomposed; of one that is, there is a
`todo!`. The running sum is returned with the point. Models ecc/chip/mul_fixed/short.rs lines 79-246, without the check
made in tests. -/
def assign (c : MulShort) (start : Nat) (magnitude sign : Assigned (ZMod p)) (base : FixedBase p) :
    Except Stop (List (Calls (ZMod p)) × EccPoint (ZMod p) × List (Assigned (ZMod p))) := do
  let (c0, zs) ← c.sup.runningSum.copy 3 start 0 magnitude true 64 22
  let ks ← MulFixed.sumWindows (q := q) zs
  let (c1, acc, mulB) ← c.sup.inner 22 start 0 base c.sup.runningSum.qRangeCheck ks
  let r := c.sup.add.assign (start + 1) mulB acc 0
  let s := copyAdvice (start + 1) sign c.sup.window 1
  match zs[21]? with
  | some z21 =>
    let l := copyAdvice (start + 1) z21 c.sup.u 1
    let y := assignAdvice (start + 1) c.sup.add.yP 1 (do
      let s ← s.2.value
      let y ← r.2.y.value
      return if s = -1 then -y else y)
    return ([c0 ++ c1, r.1 ++ s.1 ++ l.1 ++ [.enable c.qShort 1] ++ y.1], ⟨r.2.x, y.2⟩, zs)
  | none => .error .panic

end MulShort

/-- `T_P`: the base field of Pallas has 2^254 + `T_P` elements. Models ecc/chip/constants.rs lines 34-36. -/
def tP : Nat := 45560315531419706090280762371685220353

/-- `base_field_elem::Config`. Models ecc/chip/mul_fixed/base_field_elem.rs lines 20-26. -/
structure MulBaseField where
  qBase : Selector
  canon : Nat → Nat
  lookup : RangeCheck
  sup : MulFixed

namespace MulBaseField

/-- The checks that the element is given by its canonical representative. Models
ecc/chip/mul_fixed/base_field_elem.rs lines 59-159. -/
def polys (c : MulBaseField) : List (Expr (ZMod p)) :=
  let alpha := Expr.advice (c.canon 0) (-1)
  let z84 := Expr.advice (c.canon 2) (-1)
  let alpha0 := alpha - .scaled z84 (((2 ^ 126 : Nat) : ZMod p) ^ 2)
  let alpha1 := Expr.advice (c.canon 1) 0
  let alpha2 := Expr.advice (c.canon 2) 0
  let alpha0Prime := Expr.advice (c.canon 0) 0
  let z13 := Expr.advice (c.canon 0) 1
  let z44 := Expr.advice (c.canon 1) 1
  let z43 := Expr.advice (c.canon 2) 1
  let hi120 := z44 - z84 * .const (((2 ^ 60 : Nat) : ZMod p) ^ 2)
  let a43 := z43 - .scaled z44 8
  [alpha2 * alpha1, alpha2 * hi120, alpha2 * boolCheck a43, alpha2 * z13,
    rangeCheck alpha1 4, boolCheck alpha2, z84 - (alpha1 + .scaled alpha2 4),
    alpha0Prime - (alpha0 + .const (((2 ^ 65 : Nat) : ZMod p) ^ 2) - .const ((tP : Nat) : ZMod p))]

/-- All gates and lookups. Models ecc/chip/mul_fixed/base_field_elem.rs lines 28-55; the lookups are configured before. -/
def chip (c : MulBaseField) (b : ZMod p) : Except Stop (Chip (ZMod p)) := do
  let sup ← c.sup.chip b
  let lookup : Chip (ZMod p) := c.lookup.chip 10
  return { gates := sup.gates ++ lookup.gates ++ [(c.qBase, c.polys)], lookups := lookup.lookups }

/-- `assign`, in regions `start` to `start + 3`. Models ecc/chip/mul_fixed/base_field_elem.rs lines 162-375, without the
check made in tests. -/
def assign (c : MulBaseField) (start : Nat) (scalar : Assigned (ZMod p)) (base : FixedBase p) :
    Except Stop (List (Calls (ZMod p)) × EccPoint (ZMod p)) := do
  let (c0, zs) ← c.sup.runningSum.copy 3 start 0 scalar true 255 85
  let ks ← MulFixed.sumWindows (q := q) zs
  let (c1, acc, mulB) ← c.sup.inner 85 start 0 base c.sup.runningSum.qRangeCheck ks
  let r := c.sup.add.assign (start + 1) mulB acc 0
  match zs[0]?, zs[43]?, zs[44]?, zs[84]? with
  | some alpha, some z43, some z44, some z84 =>
    let prime := do
      let a ← alpha.value
      let z ← z84.value
      return a - z * ((2 ^ 126 : Nat) : ZMod p) ^ 2 + ((2 ^ 65 : Nat) : ZMod p) ^ 2 - ((tP : Nat) : ZMod p)
    let (c2, sums) ← c.lookup.witnessCheck 10 (start + 2) prime 13 false
    match sums[0]?, sums[13]? with
    | some prime, some z13 =>
      let alpha1 ← onKnown alpha.value fun a => bitrangeSubset a 252 254
      let alpha2 ← onKnown alpha.value fun a => bitrangeSubset a 254 255
      return ([c0 ++ c1, r.1, c2,
        .enable c.qBase 1 ::
          ((copyAdvice (start + 3) alpha (c.canon 0) 0).1 ++ (copyAdvice (start + 3) z84 (c.canon 2) 0).1 ++
          (copyAdvice (start + 3) prime (c.canon 0) 1).1 ++ (assignAdvice (start + 3) (c.canon 1) 1 alpha1).1 ++
          (assignAdvice (start + 3) (c.canon 2) 1 alpha2).1 ++ (copyAdvice (start + 3) z13 (c.canon 0) 2).1 ++
          (copyAdvice (start + 3) z44 (c.canon 1) 2).1 ++ (copyAdvice (start + 3) z43 (c.canon 2) 2).1)], r.2)
    | _, _ => .error .panic
  | _, _, _, _ => .error .panic

end MulBaseField

end Verif.Gadget
