import Mathlib.RingTheory.RootsOfUnity.Basic
import Verif.Lemmas.PairBilinear
import Verif.Spec.OnChain

/-!
The second group, the target group, and the pairing of the code as a map between groups.
-/

namespace Verif.Spec

open Verif.Tower

/-- The points of the second curve. -/
abbrev Twist := Pt (g2B : Fq2 Fq)

/-- The second group: the points that `P` takes to 0. -/
noncomputable def g2Group : AddSubgroup Twist where
  carrier := {A | P • A = 0}
  zero_mem' := nsmul_zero P
  add_mem' {A B} hA hB := by
    show P • (A + B) = 0
    rw [nsmul_add, show P • A = 0 from hA, show P • B = 0 from hB, add_zero]
  neg_mem' {A} hA := by
    show P • (-A) = 0
    rw [neg_nsmul, show P • A = 0 from hA, neg_zero]

abbrev G2 : Type := g2Group

theorem G2.inG2 (B : G2) : InG2 B.1 := (inG2_iff B.1).2 B.2

theorem G2.order (B : G2) : P • B = 0 := Subtype.ext (by rw [AddSubgroup.coe_nsmul]; exact B.2)

noncomputable instance : Module Fr G2 := AddCommGroup.zmodModule G2.order

/-- The target group: the elements whose `P`-th power is 1, written additively. -/
abbrev GT := Additive (rootsOfUnity P (Fq12 Fq))

theorem GT.order (c : GT) : P • c = 0 := by
  have h : (c.toMul) ^ P = 1 := Subtype.ext (by rw [Subgroup.coe_pow]; exact c.toMul.2)
  exact congrArg Additive.ofMul h

noncomputable instance : Module Fr GT := AddCommGroup.zmodModule GT.order

/-- The element of the field. -/
noncomputable def GT.val (c : GT) : Fq12 Fq := (c.toMul.1 : Fq12 Fq)

theorem GT.ext {c d : GT} (h : c.val = d.val) : c = d :=
  congrArg Additive.ofMul (Subtype.ext (Units.ext h))

/-- An element whose `P`-th power is 1. -/
noncomputable def GT.of (c : Fq12 Fq) (h : c ^ P = 1) : GT :=
  Additive.ofMul (rootsOfUnity.mkOfPowEq c h)

theorem GT.val_of (c : Fq12 Fq) (h : c ^ P = 1) : (GT.of c h).val = c := rfl

theorem GT.val_add (c d : GT) : (c + d).val = c.val * d.val := rfl

theorem GT.val_zero : (0 : GT).val = 1 := rfl

/-- What the code gives for the coordinates of two points. -/
noncomputable def tate (A : G1) (B : G2) : GT := GT.of (E A B.1) (E_order A (G2.inG2 B))

/-- The pairing of the code. -/
noncomputable def bnPairing : G1 →ₗ[Fr] G2 →ₗ[Fr] GT :=
  AddMonoidHom.toZModLinearMap P
    { toFun := fun A => AddMonoidHom.toZModLinearMap P
        { toFun := tate A
          map_zero' := GT.ext (E_zero_right A)
          map_add' := fun B C => GT.ext (E_add_right A (G2.inG2 B) (G2.inG2 C)) }
      map_zero' := LinearMap.ext fun B => GT.ext (E_zero_left B.1)
      map_add' := fun A C => LinearMap.ext fun B => GT.ext (E_add_left A C (G2.inG2 B)) }

theorem bnPairing_val (A : G1) (B : G2) : (bnPairing A B).val = E A B.1 := rfl

/-! ### Coordinates of the second group -/

open Classical in
/-- The point of the second group with these coordinates, if there is one. -/
noncomputable def pointOf2 (q : Aff (Fq2 Fq)) : Option G2 := if h : ∃ B : G2, AffIs q B.1 then some h.choose else none

theorem pointOf2_affOf2 (B : G2) : pointOf2 (affOf2 B.1) = some B := by
  have h : ∃ C : G2, AffIs (affOf2 B.1) C.1 := ⟨B, affOf2_is B.1⟩
  unfold pointOf2
  rw [dif_pos h]
  exact congrArg some (Subtype.ext (aff_unique smooth2 h.choose_spec (affOf2_is B.1)))

/-- The stored form of a residue. -/
noncomputable def rawFq (x : Fq) : Limbs := (FqLimbs.equiv.symm x).1

theorem decoded_rawFq (x : Fq) : decoded (rawFq x) = x := FqLimbs.equiv.apply_symm_apply x

/-- The coordinates of a point of the second group, in Montgomery form. -/
noncomputable def g2Raw : RawForm G2 G2Raw where
  raw B := ⟨⟨rawFq (affOf2 B.1).x.c0, rawFq (affOf2 B.1).x.c1⟩, ⟨rawFq (affOf2 B.1).y.c0, rawFq (affOf2 B.1).y.c1⟩⟩
  point p := pointOf2 ⟨⟨decoded p.x.c0, decoded p.x.c1⟩, ⟨decoded p.y.c0, decoded p.y.c1⟩⟩

theorem g2Raw_lawful : RawLawful g2Raw G2Raw.Stored where
  point B := by
    show pointOf2 ⟨⟨decoded (rawFq _), decoded (rawFq _)⟩, ⟨decoded (rawFq _), decoded (rawFq _)⟩⟩ = some B
    simp only [decoded_rawFq]
    exact pointOf2_affOf2 B
  stored _ := ⟨(FqLimbs.equiv.symm _).2, (FqLimbs.equiv.symm _).2, (FqLimbs.equiv.symm _).2, (FqLimbs.equiv.symm _).2⟩

/-- The generator of the second group. -/
noncomputable def g2Point : G2 := ⟨gen2, order_gen2⟩

/-- Equality in the target group can be decided. -/
noncomputable instance : DecidableEq GT := Classical.decEq _

/-- The on-chain program with the groups, encodings and the pairing of the code. What is left open is the hash,
the scalar the key is hashed to, and what happens when coordinates are not those of points. -/
noncomputable def bnOnChain (hash : Hash) (repr : VerifyingKey → Fr)
    (junk : KzgParams → VerifyingKey → List (List Fr) → List UInt8 → Except Panic Bool) : OnChain G1 G2 GT where
  codec := g1Codec
  hash := hash
  pairing := bnPairing
  r1 := g1Raw
  r2 := g2Raw
  repr := repr
  junk := junk

end Verif.Spec
