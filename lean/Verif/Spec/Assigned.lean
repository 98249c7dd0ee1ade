import Verif.Model.Assigned

/-! What fractions stand for: elements of the field, with `x / 0 = 0`. -/

namespace Verif.Spec

variable {F : Type} [Field F] [DecidableEq F]

/-- The element a fraction stands for. -/
def worth : Fraction F → F
  | .zero => 0
  | .trivial x => x
  | .rational n d => if d = 0 then 0 else n / d

/-- Formulas over some inputs. -/
inductive Formula
  | input (i : Nat)
  | neg (a : Formula)
  | add (a b : Formula)
  | sub (a b : Formula)
  | mul (a b : Formula)
  | double (a : Formula)
  | square (a : Formula)
  | cube (a : Formula)
  | invert (a : Formula)

/-- A formula computed in the field, where the inverse of zero is zero. -/
def Formula.inField (x : Nat → F) : Formula → F
  | input i => x i
  | neg a => -a.inField x
  | add a b => a.inField x + b.inField x
  | sub a b => a.inField x - b.inField x
  | mul a b => a.inField x * b.inField x
  | double a => 2 * a.inField x
  | square a => a.inField x ^ 2
  | cube a => a.inField x ^ 3
  | invert a => if a.inField x = 0 then 0 else 1 / a.inField x

/-- A formula computed with fractions. -/
def Formula.inFractions (x : Nat → Fraction F) : Formula → Fraction F
  | input i => x i
  | neg a => (a.inFractions x).neg
  | add a b => (a.inFractions x).add (b.inFractions x)
  | sub a b => (a.inFractions x).sub (b.inFractions x)
  | mul a b => (a.inFractions x).mul (b.inFractions x)
  | double a => (a.inFractions x).double
  | square a => (a.inFractions x).square
  | cube a => (a.inFractions x).cube
  | invert a => (a.inFractions x).invert

end Verif.Spec
