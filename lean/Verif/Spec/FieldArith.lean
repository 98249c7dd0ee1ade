import Verif.Model.FieldArith
import Verif.Spec.Curve

/-! What the limbs of a field element stand for. -/

namespace Verif.Spec

/-- The limbs are words, the number they write is below the modulus, and it is the element times
`2^256`. -/
structure Stands (p : Nat) (a : Limbs) (x : ZMod p) : Prop where
  ok : a.Ok
  below : a.val < p
  value : (a.val : ZMod p) = x * 2 ^ 256

/-- The two fields of bn256 and their constants. -/
def Bn256Field (c : FieldConsts) (p : Nat) : Prop := (c = fqConsts ∧ p = Q) ∨ (c = frConsts ∧ p = P)

/-- The number eight limbs write. -/
def wideVal (a : Limbs8) : Nat :=
  a.l0 + 2 ^ 64 * a.l1 + 2 ^ 128 * a.l2 + 2 ^ 192 * a.l3 + 2 ^ 256 * a.l4 + 2 ^ 320 * a.l5 + 2 ^ 384 * a.l6 +
    2 ^ 448 * a.l7

/-- The eight limbs are words. -/
def WideOk (a : Limbs8) : Prop :=
  a.l0 < 2 ^ 64 ∧ a.l1 < 2 ^ 64 ∧ a.l2 < 2 ^ 64 ∧ a.l3 < 2 ^ 64 ∧ a.l4 < 2 ^ 64 ∧ a.l5 < 2 ^ 64 ∧ a.l6 < 2 ^ 64 ∧
    a.l7 < 2 ^ 64

end Verif.Spec
