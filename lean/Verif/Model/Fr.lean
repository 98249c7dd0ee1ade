import Verif.Lemmas.Pratt

/-!
The scalar field of bn256, as used by every crate of the project.
-/

namespace Verif

/-- The modulus of `Fr`.
Models halo2curves/src/bn256/fr.rs lines 26-35 (`MODULUS`, `MODULUS_STR`
0x30644e72e131a029b85045b68181585d2833e84879b9709143e1f593f0000001). -/
def P : Nat := 0x30644e72e131a029b85045b68181585d2833e84879b9709143e1f593f0000001

theorem P_eq : P =
    21888242871839275222246405745257275088548364400416034343698204186575808495617 := rfl

theorem P_prime : P.Prime := Pratt.prime_bn256_scalar

instance : Fact P.Prime := ⟨P_prime⟩

/-- `Fr` as the ring of integers modulo `P`.
Models halo2curves/src/bn256/fr.rs lines 23-24, 144-252. Simplification: the
Montgomery limb representation is replaced by the residue class it stands for
(the limb arithmetic has its own model). -/
abbrev Fr := ZMod P

/-- `a.get_lower_128() as usize` on a 64-bit target: the low 64 bits of the
canonical representative.
Models halo2curves/src/derive/field.rs lines 320-326 and the casts in
ckb_bf_vm/src/interpreter.rs lines 20-26. -/
def Fr.toUsize (a : Fr) : Nat := a.val % 2 ^ 128 % 2 ^ 64

/-- `a.get_lower_128() as u8`.
Models halo2curves/src/derive/field.rs lines 320-326 and the cast in
ckb_bf_vm/src/interpreter.rs line 88. -/
def Fr.toU8 (a : Fr) : Nat := a.val % 2 ^ 128 % 2 ^ 8

/-- `a < b` in the order of field elements, which compares canonical
representatives.
Models halo2curves/src/derive/field.rs lines 205-224. -/
def Fr.lt (a b : Fr) : Bool := decide (a.val < b.val)

/-- `a.invert().unwrap_or(0)`: in the code inversion is only called on nonzero values.
Models halo2curves/src/bn256/fr.rs lines 182-191; the value for 0 is never used. -/
def Fr.inv (a : Fr) : Fr := a⁻¹

end Verif
