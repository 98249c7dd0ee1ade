import Verif.Model.Secp
import Verif.Spec.CurveGroup
import Verif.Spec.FieldArith

/-! The two primes of secp256k1, and its points. -/

namespace Verif.Spec

/-- The prime of the base field, as in the standard SEC 2. -/
def secpP : Nat := 2 ^ 256 - 2 ^ 32 - 977

/-- The prime of the scalar field, as in the standard SEC 2. -/
def secpQ : Nat := 0xfffffffffffffffffffffffffffffffebaaedce6af48a03bbfd25e8cd0364141

/-- The two fields of secp256k1 and their constants. -/
def SecpField (c : FieldConsts) (p : Nat) : Prop := (c = secpFpConsts ∧ p = secpP) ∨ (c = secpFqConsts ∧ p = secpQ)

/-- The base field as residues. -/
abbrev SecpBase := ZMod secpP

/-- The scalar field as residues. -/
abbrev SecpScalar := ZMod secpQ

/-- The coordinates of the generator, as in the standard SEC 2. -/
def secpX : SecpBase := ((0x79BE667EF9DCBBAC55A06295CE870B07029BFCDB2DCE28D959F2815B16F81798 : Nat) : SecpBase)
@[inherit_doc secpX]
def secpY : SecpBase := ((0x483ADA7726A3C4655DA4FBFC0E1108A8FD17B448A6855419 * 2 ^ 64 + 0x9C47D08FFB10D4B8 : Nat) : SecpBase)

/-- Bytes and roots of residues modulo `secpP`: 32 bytes of the representative, only those of numbers below `secpP`
are read; the root found is a power. -/
def secpIO : FieldIO SecpBase where
  size := 32
  fromBytes b := if leNat b < secpP then some ((leNat b : Nat) : SecpBase) else none
  toBytes x := leBytes 32 x.val
  sqrt x := if x ^ ((secpP + 1) / 4) * x ^ ((secpP + 1) / 4) = x then some (x ^ ((secpP + 1) / 4)) else none

end Verif.Spec
