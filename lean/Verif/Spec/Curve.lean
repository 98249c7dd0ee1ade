import Mathlib.Data.ZMod.Basic
import Verif.Model.Limbs

/-!
The curve bn256 G1, and what stored limbs stand for.
-/

namespace Verif.Spec

/-- The modulus of the base field of bn256. -/
def Q : Nat := 0x30644e72e131a029b85045b68181585d97816a916871ca8d3c208c16d87cfd47

/-- The base field (its elements are the residues modulo `Q`). -/
abbrev Fq := ZMod Q

/-- The inverse of `2^256` modulo `Q` (`montgomery_inverse` below). -/
def Rinv : Fq := (0x2e67157159e5c639cf63e9cfb74492d9eb2022850278edf8ed84884a014afa37 : Nat)

theorem montgomery_inverse : (2 ^ 256 : Fq) * Rinv = 1 := by decide +kernel

/-- The field element that limbs in Montgomery form stand for. -/
def decoded (a : Limbs) : Fq := (a.val : Fq) * Rinv

/-- A point of the curve `y² = x³ + 3`; `(0, 0)` stands for the point at infinity. -/
def OnCurve (x y : Fq) : Prop := (x = 0 ∧ y = 0) ∨ y ^ 2 = x ^ 3 + 3

instance (x y : Fq) : Decidable (OnCurve x y) := by unfold OnCurve; infer_instance

end Verif.Spec
