import Mathlib.Algebra.Field.TransferInstance
import Verif.Lemmas.FieldValue
import Verif.Lemmas.PrattBase
import Verif.Spec.PointCodec

/-!
The stored forms of base field elements, as a type. The field structure on it is the one of the residues
they stand for; C57_field says that its operations are those on limbs.
-/

namespace Verif.Spec

open FieldConsts

/-- Four words below the modulus. -/
def FqLimbs := {a : Limbs // a.Ok ∧ a.val < Q}

instance : DecidableEq FqLimbs := inferInstanceAs (DecidableEq {a : Limbs // a.Ok ∧ a.val < Q})

/-- The residue that a stored form stands for. -/
def FqLimbs.value (a : FqLimbs) : Fq := decoded a.1

theorem FqLimbs.stands (a : FqLimbs) : Stands Q a.1 a.value := by
  refine ⟨a.2.1, a.2.2, ?_⟩
  unfold value decoded
  rw [mul_assoc, mul_comm Rinv, montgomery_inverse, mul_one]

theorem FqLimbs.value_bijective : Function.Bijective FqLimbs.value := by
  have s := fq_setup
  constructor
  · intro a b h
    have hb := b.stands
    rw [← h] at hb
    exact Subtype.ext (s.unique a.stands hb)
  · intro x
    obtain ⟨a, ha⟩ := s.exists_limbs x
    let b : FqLimbs := ⟨a, ha.ok, ha.below⟩
    refine ⟨b, s.cancel ?_⟩
    rw [← b.stands.value, ← ha.value]

/-- Stored forms and residues. -/
noncomputable def FqLimbs.equiv : FqLimbs ≃ Fq := Equiv.ofBijective _ FqLimbs.value_bijective

noncomputable instance : Field FqLimbs := FqLimbs.equiv.field

theorem zero_lt_W64 : 0 < W64 := by decide

/-- `Fq::from_raw` of a small constant, as the code writes its constants. -/
def FqLimbs.ofSmall (n : Nat) (h : n < W64) : FqLimbs :=
  have st := fq_setup.fromRaw (a := ⟨n, 0, 0, 0⟩) ⟨h, zero_lt_W64, zero_lt_W64, zero_lt_W64⟩
  ⟨fqConsts.fromRaw ⟨n, 0, 0, 0⟩, st.ok, st.below⟩

/-- The constant of the curve, `G1_B`. Models halo2curves/src/bn256/curve.rs line 68. -/
def g1B : FqLimbs := .ofSmall 3 (by decide)

/-- The result of limb arithmetic as a stored form, if it is one. -/
def FqLimbs.check (a : Limbs) : Option FqLimbs :=
  if h : (a.l0 < W64 ∧ a.l1 < W64 ∧ a.l2 < W64 ∧ a.l3 < W64) ∧ a.val < Q then some ⟨a, h⟩ else none

/-- Bytes and roots computed on limbs. -/
def storedIO : FieldIO FqLimbs where
  size := 32
  fromBytes b := (fqConsts.fromRepr b).bind FqLimbs.check
  toBytes a := fqConsts.toRepr a.1
  sqrt a := (fqSqrt a.1).bind FqLimbs.check

end Verif.Spec
