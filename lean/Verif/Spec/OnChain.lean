import Verif.Model.OnChain
import Verif.Lemmas.BytesLemmas
import Verif.Lemmas.CurveOrder
import Verif.Lemmas.StoredField
import Mathlib.Algebra.Module.ZMod

/-!
What is asked of coordinates, and the group G1 of the code with its coordinates.
-/

namespace Verif.Spec

/-- Every point has coordinates in stored form, and they are those of this point. -/
structure RawLawful {G Raw : Type} (r : RawForm G Raw) (stored : Raw → Prop) : Prop where
  point : ∀ A, r.point (r.raw A) = some A
  stored : ∀ A, stored (r.raw A)

/-- Points can be multiplied by scalars, as their number is that of the scalars (C59). -/
noncomputable instance : Module Fr G1 := AddCommGroup.zmodModule order_all

/-- The coordinates of a point of G1, in Montgomery form. -/
noncomputable def g1Raw : RawForm G1 G1Raw where
  raw A := ⟨(FqLimbs.equiv.symm (affOf A).x).1, (FqLimbs.equiv.symm (affOf A).y).1⟩
  point p := pointOf ⟨decoded p.x, decoded p.y⟩

theorem g1Raw_lawful : RawLawful g1Raw G1Raw.Stored where
  point A := by
    have h : ∀ x : Fq, decoded (FqLimbs.equiv.symm x).1 = x := fun x => FqLimbs.equiv.apply_symm_apply x
    show pointOf ⟨decoded (FqLimbs.equiv.symm (affOf A).x).1, decoded (FqLimbs.equiv.symm (affOf A).y).1⟩ = some A
    rw [h, h]
    exact pointOf_affOf A
  stored A := ⟨(FqLimbs.equiv.symm (affOf A).x).2, (FqLimbs.equiv.symm (affOf A).y).2⟩

end Verif.Spec
