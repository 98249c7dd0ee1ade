import Mathlib.GroupTheory.Perm.Cycle.Type
import Mathlib.GroupTheory.OrderOfElement
import Mathlib.Algebra.Module.ZMod
import Mathlib.FieldTheory.Finite.Basic
import Verif.Lemmas.CurveMul
import Verif.Lemmas.Secp
import Verif.Lemmas.SecpPoints

/-! The curve of secp256k1 has as many points as there are scalars. -/

namespace Verif.Spec

open WeierstrassCurve.Affine

/-- A point is known from its first coordinate and the parity of the second. -/
def secpTag : SecpPt → Option (SecpBase × Bool)
  | .zero => none
  | .some x y _ => some (x, decide (y.val % 2 = 1))

theorem secpTag_injective : Function.Injective secpTag := by
  intro A B h
  match A, B, h with
  | .zero, .zero, _ => rfl
  | .some x1 y1 h1, .some x2 y2 h2, h =>
    simp only [secpTag, Option.some.injEq, Prod.mk.injEq] at h
    obtain ⟨rfl, hy⟩ := h
    have : y1 = y2 := secp_same_parity (by rw [point_eq h1, point_eq h2]) hy
    subst this
    rfl

instance : Finite (SecpPt) := Finite.of_injective secpTag secpTag_injective

theorem secp_card_le : Nat.card (SecpPt) ≤ 2 * secpP + 1 := by
  refine (Nat.card_le_card_of_injective secpTag secpTag_injective).trans ?_
  rw [Nat.card_eq_fintype_card, Fintype.card_option, Fintype.card_prod, Fintype.card_bool, ZMod.card]
  omega

set_option maxRecDepth 100000 in
theorem secp_order_generator : secpQ • secpGen = 0 := by
  have h : JacIs (⟨secpX, secpY, 1⟩ : Jac SecpBase) secpGen := jac_some.2 ⟨one_ne_zero, by decide +kernel, by decide +kernel⟩
  have h2 := mul_is smooth_seven h (leBytes 32 secpQ)
  rw [leNat_leBytes 32 secpQ (by decide +kernel)] at h2
  have h3 : (Jac.mul (⟨secpX, secpY, 1⟩ : Jac SecpBase) (leBytes 32 secpQ)).z = 0 := by decide +kernel
  exact jac_unique h2 (jac_zero.2 h3)

/-- The number of points. -/
theorem secp_card : Nat.card (SecpPt) = secpQ := by
  have hg : addOrderOf secpGen = secpQ := by
    refine addOrderOf_eq_prime secp_order_generator ?_
    exact Point.some_ne_zero _
  have hd : secpQ ∣ Nat.card (SecpPt) := by
    rw [← hg]
    exact addOrderOf_dvd_natCard secpGen
  have hle := secp_card_le
  have hpos : 0 < Nat.card (SecpPt) := Nat.card_pos
  have h3 : 2 * secpP + 1 < 3 * secpQ := by decide +kernel
  obtain ⟨m, hm⟩ := hd
  have hodd : ¬ 2 ∣ Nat.card (SecpPt) := by
    intro h
    obtain ⟨A, hA⟩ := exists_prime_addOrderOf_dvd_card' 2 h
    have h2 := addOrderOf_nsmul_eq_zero A
    rw [hA] at h2
    rw [two_nsmul] at h2
    rw [secp_no_two_torsion h2, addOrderOf_zero] at hA
    omega
  have hlt : m < 3 := by
    by_contra hc
    have : secpQ * 3 ≤ secpQ * m := Nat.mul_le_mul_left _ (by omega)
    omega
  have hm0 : m ≠ 0 := by rintro rfl; omega
  have hm2 : m ≠ 2 := by
    rintro rfl
    exact hodd ⟨secpQ, by rw [hm]; ring⟩
  have : m = 1 := by omega
  rw [hm, this, mul_one]

theorem secp_order (A : SecpPt) : secpQ • A = 0 := by
  rw [← secp_card]
  exact card_nsmul_eq_zero'

end Verif.Spec
