import Verif.Lemmas.EccChip
import Verif.Lemmas.PrattPasta
import Mathlib.FieldTheory.Finite.Basic

/-! The curve Pallas. -/

namespace Verif.Lemmas.Ecc

open Verif.Gadget Verif.Spec.Gadget Verif.Spec Verif.Spec.Ecc

/-- The base field of Pallas. -/
abbrev Fp := ZMod pallasBase

theorem pallas_pow {a e r : Nat} (he : e < 2 ^ 300) (h : Pratt.powMod pallasBase 300 a e 1 % pallasBase = r) :
    ((a : Nat) : Fp) ^ e = ((r : Nat) : Fp) := by
  have := Pratt.powMod_cast pallasBase 300 a e 1 he
  rw [← h, ZMod.natCast_mod, this]
  simp

theorem smooth_five : Smooth (5 : Fp) := ⟨by decide +kernel, by decide +kernel, by decide +kernel⟩

/-- 5 is no square and -5 is no cube. -/
theorem usable_pallas : Usable (5 : Fp) where
  smooth := smooth_five
  x := by
    intro y hy
    have h0 : y ≠ 0 := by
      rintro rfl
      exact smooth_five.b (by simpa using hy.symm)
    have h1 : y ^ (pallasBase - 1) = 1 := ZMod.pow_card_sub_one_eq_one h0
    have h2 : ((5 : Nat) : Fp) ^ ((pallasBase - 1) / 2) = ((pallasBase - 1 : Nat) : Fp) :=
      pallas_pow (by decide +kernel) (by decide +kernel)
    have h3 : ((5 : Nat) : Fp) = y ^ 2 := by rw [hy]; rfl
    rw [h3, ← pow_mul] at h2
    have h4 : 2 * ((pallasBase - 1) / 2) = pallasBase - 1 := by decide +kernel
    rw [h4, h1] at h2
    revert h2
    decide +kernel
  y := by
    intro x hx
    have hx' : x ^ 3 = ((pallasBase - 5 : Nat) : Fp) := by
      have : ((pallasBase - 5 : Nat) : Fp) = -5 := by decide +kernel
      rw [this]; linear_combination hx
    have h0 : x ≠ 0 := by
      rintro rfl
      exact smooth_five.b (by simpa using hx)
    have h1 : x ^ (pallasBase - 1) = 1 := ZMod.pow_card_sub_one_eq_one h0
    have h2 : ((pallasBase - 5 : Nat) : Fp) ^ ((pallasBase - 1) / 3) =
        ((Pratt.powMod pallasBase 300 (pallasBase - 5) ((pallasBase - 1) / 3) 1 % pallasBase : Nat) : Fp) :=
      pallas_pow (by decide +kernel) rfl
    rw [← hx', ← pow_mul] at h2
    have h4 : 3 * ((pallasBase - 1) / 3) = pallasBase - 1 := by decide +kernel
    rw [h4, h1] at h2
    revert h2
    decide +kernel

/-- The point (-1, 2). -/
def pallasGen : Pt (5 : Fp) := .some (-1) 2 ((nonsingular_curve smooth_five).2 (by decide +kernel))

theorem pallasGen_ne : pallasGen ≠ 0 := WeierstrassCurve.Affine.Point.some_ne_zero _

end Verif.Lemmas.Ecc
