import Mathlib.GroupTheory.OrderOfElement
import Mathlib.Algebra.Module.ZMod
import Verif.Lemmas.CurveMul
import Verif.Lemmas.EccPallas
import Verif.Spec.Curve

/-! Pallas has exactly `vestaBase` points. -/

namespace Verif.Lemmas.Ecc

open Verif.Gadget Verif.Spec.Gadget Verif.Spec Verif.Spec.Ecc WeierstrassCurve.Affine

theorem pallas_parity_neg {y : Fp} (h : y ≠ 0) : (-y).val % 2 ≠ y.val % 2 := by
  have : NeZero y := ⟨h⟩
  rw [ZMod.val_neg_of_ne_zero]
  have h1 := ZMod.val_lt y
  have h2 : pallasBase % 2 = 1 := by decide +kernel
  omega

/-- A point is known from its first coordinate and the parity of the second. -/
def pallasTag : Pt (5 : Fp) → Option (Fp × Bool)
  | .zero => none
  | .some x y _ => some (x, decide (y.val % 2 = 1))

theorem pallas_same_parity {y z : Fp} (h : y ^ 2 = z ^ 2) (hp : decide (y.val % 2 = 1) = decide (z.val % 2 = 1)) : y = z := by
  rcases sq_eq_sq_iff_eq_or_eq_neg.1 h with h | h
  · exact h
  · by_cases h0 : z = 0
    · rw [h, h0, neg_zero]
    · have := pallas_parity_neg h0
      rw [← h] at this
      rw [decide_eq_decide] at hp
      omega

theorem pallasTag_injective : Function.Injective pallasTag := by
  intro A B h
  match A, B, h with
  | .zero, .zero, _ => rfl
  | .some x1 y1 h1, .some x2 y2 h2, h =>
    simp only [pallasTag, Option.some.injEq, Prod.mk.injEq] at h
    obtain ⟨rfl, hy⟩ := h
    have : y1 = y2 := pallas_same_parity (by rw [point_eq h1, point_eq h2]) hy
    subst this
    rfl

instance : Finite (Pt (5 : Fp)) := Finite.of_injective pallasTag pallasTag_injective

theorem pallas_card_le : Nat.card (Pt (5 : Fp)) ≤ 2 * pallasBase + 1 := by
  refine (Nat.card_le_card_of_injective pallasTag pallasTag_injective).trans ?_
  rw [Nat.card_eq_fintype_card, Fintype.card_option, Fintype.card_prod, Fintype.card_bool, ZMod.card]
  omega

set_option maxRecDepth 100000 in
theorem pallas_order_generator : vestaBase • pallasGen = 0 := by
  have h : JacIs (⟨-1, 2, 1⟩ : Jac Fp) pallasGen := jac_some.2 ⟨one_ne_zero, by decide +kernel, by decide +kernel⟩
  have h2 := mul_is smooth_five h (leBytes 32 vestaBase)
  rw [leNat_leBytes 32 vestaBase (by decide +kernel)] at h2
  have h3 : (Jac.mul (⟨-1, 2, 1⟩ : Jac Fp) (leBytes 32 vestaBase)).z = 0 := by decide +kernel
  exact jac_unique h2 (jac_zero.2 h3)

theorem pallas_card : Nat.card (Pt (5 : Fp)) = vestaBase := by
  have hg : addOrderOf pallasGen = vestaBase := addOrderOf_eq_prime pallas_order_generator pallasGen_ne
  obtain ⟨m, hm⟩ : vestaBase ∣ Nat.card (Pt (5 : Fp)) := by
    rw [← hg]
    exact addOrderOf_dvd_natCard pallasGen
  have hle := pallas_card_le
  have hpos : 0 < Nat.card (Pt (5 : Fp)) := Nat.card_pos
  have h3 : 2 * pallasBase + 1 < 2 * vestaBase := by decide +kernel
  have hlt : m < 2 := by
    by_contra hc
    have : vestaBase * 2 ≤ vestaBase * m := Nat.mul_le_mul_left _ (by omega)
    omega
  have hm0 : m ≠ 0 := by rintro rfl; omega
  have : m = 1 := by omega
  rw [hm, this, mul_one]

theorem pallas_order (A : Pt (5 : Fp)) : vestaBase • A = 0 := by
  rw [← pallas_card]
  exact card_nsmul_eq_zero'

/-- Every point but the identity has that order. -/
theorem pallas_free {A : Pt (5 : Fp)} (h : A ≠ 0) {m : Nat} (h0 : 0 < m) (hm : m < vestaBase) : m • A ≠ 0 := by
  intro e
  have ho : addOrderOf A = vestaBase := addOrderOf_eq_prime (pallas_order A) h
  have := addOrderOf_dvd_of_nsmul_eq_zero e
  rw [ho] at this
  exact absurd (Nat.le_of_dvd h0 this) (by omega)

end Verif.Lemmas.Ecc
