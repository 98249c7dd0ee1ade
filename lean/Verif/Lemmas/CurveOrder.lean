import Mathlib.GroupTheory.Perm.Cycle.Type
import Mathlib.GroupTheory.OrderOfElement
import Mathlib.Algebra.Module.ZMod
import Mathlib.FieldTheory.Finite.Basic
import Verif.Lemmas.CurveMul
import Verif.Lemmas.PrattBase
import Verif.Spec.Curve

/-! The curve of bn256 has exactly `P` points. -/

namespace Verif.Spec

open WeierstrassCurve.Affine

theorem smooth_three : Smooth (3 : Fq) := ⟨by decide +kernel, by decide +kernel, by decide +kernel⟩

/-- A negative has the other parity. -/
theorem parity_neg {y : Fq} (h : y ≠ 0) : (-y).val % 2 ≠ y.val % 2 := by
  have : NeZero y := ⟨h⟩
  rw [ZMod.val_neg_of_ne_zero]
  have h1 := ZMod.val_lt y
  have h2 : Q % 2 = 1 := by decide +kernel
  omega

/-- A point is known from its first coordinate and the parity of the second. -/
def tag : Pt (3 : Fq) → Option (Fq × Bool)
  | .zero => none
  | .some x y _ => some (x, decide (y.val % 2 = 1))

theorem same_parity {y z : Fq} (h : y ^ 2 = z ^ 2) (hp : decide (y.val % 2 = 1) = decide (z.val % 2 = 1)) : y = z := by
  rcases sq_eq_sq_iff_eq_or_eq_neg.1 h with h | h
  · exact h
  · by_cases h0 : z = 0
    · rw [h, h0, neg_zero]
    · have := parity_neg h0
      rw [← h] at this
      rw [decide_eq_decide] at hp
      omega

theorem tag_injective : Function.Injective tag := by
  intro A B h
  match A, B, h with
  | .zero, .zero, _ => rfl
  | .some x1 y1 h1, .some x2 y2 h2, h =>
    simp only [tag, Option.some.injEq, Prod.mk.injEq] at h
    obtain ⟨rfl, hy⟩ := h
    have : y1 = y2 := same_parity (by rw [point_eq h1, point_eq h2]) hy
    subst this
    rfl

instance : Finite (Pt (3 : Fq)) := Finite.of_injective tag tag_injective

theorem card_le : Nat.card (Pt (3 : Fq)) ≤ 2 * Q + 1 := by
  refine (Nat.card_le_card_of_injective tag tag_injective).trans ?_
  rw [Nat.card_eq_fintype_card, Fintype.card_option, Fintype.card_prod, Fintype.card_bool, ZMod.card]
  omega

/-- The generator (1, 2). -/
def generator : Pt (3 : Fq) := .some 1 2 ((nonsingular_curve smooth_three).2 (by decide +kernel))

set_option maxRecDepth 100000 in
theorem order_generator : P • generator = 0 := by
  have h : JacIs (⟨1, 2, 1⟩ : Jac Fq) generator := jac_some.2 ⟨one_ne_zero, by decide +kernel, by decide +kernel⟩
  have h2 := mul_is smooth_three h (leBytes 32 P)
  rw [leNat_leBytes 32 P (by decide +kernel)] at h2
  have h3 : (Jac.mul (⟨1, 2, 1⟩ : Jac Fq) (leBytes 32 P)).z = 0 := by decide +kernel
  exact jac_unique h2 (jac_zero.2 h3)

/-- -3 is not a cube. -/
theorem not_cube : (-3 : Fq) ^ ((Q - 1) / 3) ≠ 1 := by
  have s := fq_setup
  have h3 : Stands Q (fqConsts.neg (fqConsts.fromU64 3)) (-3 : Fq) := s.neg (s.fromU64 (v := 3) (by norm_num))
  have hp := s.pow h3 (e := ⟨0x69602eb24829a9c2, 0xdd2b2385cd7b4384, 0xe81ac1e7808072c9, 0x10216f7ba065e00d⟩)
    ((limbs_ok_iff _).2 (by decide +kernel))
  have e : Limbs.val ⟨0x69602eb24829a9c2, 0xdd2b2385cd7b4384, 0xe81ac1e7808072c9, 0x10216f7ba065e00d⟩ = (Q - 1) / 3 := by
    decide +kernel
  rw [e] at hp
  intro h
  have := (s.eq_iff hp s.r).2 h
  revert this
  decide +kernel

/-- No point is its own negative, except the one at infinity. -/
theorem no_two_torsion {A : Pt (3 : Fq)} (h : A + A = 0) : A = 0 := by
  match A, h with
  | .zero, _ => rfl
  | .some x y hn, h =>
    exfalso
    by_cases y0 : y = 0
    · have he := point_eq hn
      rw [y0] at he
      have hx : x ^ 3 = -3 := by linear_combination -he
      have x0 : x ≠ 0 := by
        rintro rfl
        exact absurd hx (by decide +kernel)
      have h1 : x ^ (Q - 1) = 1 := ZMod.pow_card_sub_one_eq_one x0
      rw [show Q - 1 = 3 * ((Q - 1) / 3) by decide +kernel, pow_mul, hx] at h1
      exact not_cube h1
    · obtain ⟨hn', e⟩ := double_point smooth_three (h1 := hn) y0
      rw [e] at h
      exact Point.some_ne_zero hn' h

/-- The number of points. -/
theorem card_points : Nat.card (Pt (3 : Fq)) = P := by
  have hg : addOrderOf generator = P := by
    refine addOrderOf_eq_prime order_generator ?_
    exact Point.some_ne_zero _
  have hd : P ∣ Nat.card (Pt (3 : Fq)) := by
    rw [← hg]
    exact addOrderOf_dvd_natCard generator
  have hle := card_le
  have hpos : 0 < Nat.card (Pt (3 : Fq)) := Nat.card_pos
  have h3 : 2 * Q + 1 < 3 * P := by decide +kernel
  obtain ⟨m, hm⟩ := hd
  have hodd : ¬ 2 ∣ Nat.card (Pt (3 : Fq)) := by
    intro h
    obtain ⟨A, hA⟩ := exists_prime_addOrderOf_dvd_card' 2 h
    have h2 := addOrderOf_nsmul_eq_zero A
    rw [hA] at h2
    rw [two_nsmul] at h2
    rw [no_two_torsion h2, addOrderOf_zero] at hA
    omega
  have hlt : m < 3 := by
    by_contra hc
    have : P * 3 ≤ P * m := Nat.mul_le_mul_left _ (by omega)
    omega
  have hm0 : m ≠ 0 := by rintro rfl; omega
  have hm2 : m ≠ 2 := by
    rintro rfl
    exact hodd ⟨P, by rw [hm]; ring⟩
  have : m = 1 := by omega
  rw [hm, this, mul_one]

theorem order_all (A : Pt (3 : Fq)) : P • A = 0 := by
  rw [← card_points]
  exact card_nsmul_eq_zero'

end Verif.Spec
