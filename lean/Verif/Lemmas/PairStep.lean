import Verif.Lemmas.PairLine
import Verif.Lemmas.TowerField
import Verif.Model.Pairing

/-! The two steps of the pairing: the point and the line. -/

namespace Verif.Tower

open Verif.Spec WeierstrassCurve.Affine

/-- The three numbers are a multiple of the line through `A` and `B`. -/
def Through {b : Fq2 Fq} (L : Line Fq) (A B : Pt b) : Prop :=
  ∃ c l n, c ≠ 0 ∧ LineOf A B l n ∧ L = (c, -(c * l), -(c * n))

theorem doublingStep_is {b : Fq2 Fq} (s : Smooth b) {r : Jac (Fq2 Fq)} {A : Pt b} (h : JacIs r A) (hA : A ≠ 0)
    (hAA : A + A ≠ 0) : JacIs (doublingStep r).1 (A + A) ∧ Through (doublingStep r).2 A A := by
  match A, h with
  | .zero, _ => exact absurd rfl hA
  | .some x y hn, h =>
    obtain ⟨hz, hx, hy⟩ := jac_some.1 h
    have y0 : y ≠ 0 := by
      rintro rfl
      apply hAA
      refine Point.add_self_of_Y_eq ?_
      rw [negY_curve, neg_zero]
    obtain ⟨X, Y, Z⟩ := r
    dsimp only at hz hx hy
    have h2 := s.two
    have h4 : (4 : Fq2 Fq) ≠ 0 := by
      rw [show (4 : Fq2 Fq) = 2 * 2 by norm_num]
      exact mul_ne_zero h2 h2
    constructor
    · obtain ⟨hn', e⟩ := double_point s (h1 := hn) y0
      rw [e]
      refine jac_some.2 ?_
      simp only [doublingStep, Fq2.square_eq, Fq2.double_eq, Fq2.mulAssign_eq]
      subst hx hy
      refine ⟨?_, ?_, ?_⟩
      · have : (Z + y * Z ^ 3) * (Z + y * Z ^ 3) - y * Z ^ 3 * (y * Z ^ 3) - Z * Z = 2 * y * Z ^ 4 := by ring
        rw [this]
        exact mul_ne_zero (mul_ne_zero h2 y0) (pow_ne_zero _ hz)
      · field_simp
        ring
      · field_simp
        ring
    · refine ⟨4 * y * Z ^ 6, _, _, mul_ne_zero (mul_ne_zero h4 y0) (pow_ne_zero _ hz), lineOf_double s y0, ?_⟩
      simp only [doublingStep, Fq2.square_eq, Fq2.double_eq, Fq2.mulAssign_eq]
      subst hx hy
      refine Prod.ext ?_ (Prod.ext ?_ ?_)
      · dsimp only
        ring
      · dsimp only
        field_simp
        ring
      · dsimp only
        field_simp
        ring

theorem additionStep_is {b : Fq2 Fq} (s : Smooth b) {r : Jac (Fq2 Fq)} {q : Aff (Fq2 Fq)} {A B : Pt b} (h : JacIs r A)
    (hq : AffIs q B) (hA : A ≠ 0) (hB : B ≠ 0) (h1 : A ≠ B) (h2 : A + B ≠ 0) :
    JacIs (additionStep r q).1 (A + B) ∧ Through (additionStep r q).2 A B := by
  match A, B, h, hq with
  | .zero, _, _, _ => exact absurd rfl hA
  | .some _ _ _, .zero, _, _ => exact absurd rfl hB
  | .some x y hn, .some xq yq hnq, h, hq =>
    obtain ⟨hz, hx, hy⟩ := jac_some.1 h
    have hq' : q = ⟨xq, yq⟩ := hq
    subst hq'
    have hne : x ≠ xq := by
      rintro rfl
      by_cases e : y = yq
      · subst e; exact h1 rfl
      · exact h2 (opposite e)
    have hd : x - xq ≠ 0 := sub_ne_zero.2 hne
    obtain ⟨X, Y, Z⟩ := r
    dsimp only at hz hx hy
    have h2' := s.two
    have h4 : (4 : Fq2 Fq) ≠ 0 := by
      rw [show (4 : Fq2 Fq) = 2 * 2 by norm_num]
      exact mul_ne_zero h2' h2'
    constructor
    · obtain ⟨hn', e⟩ := add_points (h1 := hn) (h2 := hnq) hne
      rw [e]
      refine jac_some.2 ?_
      simp only [additionStep, Fq2.square_eq, Fq2.double_eq, Fq2.mulAssign_eq]
      subst hx hy
      refine ⟨?_, ?_, ?_⟩
      · have : (Z + (Z * Z * xq - x * Z ^ 2)) * (Z + (Z * Z * xq - x * Z ^ 2)) - Z * Z -
            (Z * Z * xq - x * Z ^ 2) * (Z * Z * xq - x * Z ^ 2) = -(2 * (x - xq) * Z ^ 3) := by ring
        rw [this]
        exact neg_ne_zero.2 (mul_ne_zero (mul_ne_zero h2' hd) (pow_ne_zero _ hz))
      · field_simp
        ring
      · field_simp
        ring
    · refine ⟨-(4 * (x - xq) * Z ^ 3), _, _, neg_ne_zero.2 (mul_ne_zero (mul_ne_zero h4 hd) (pow_ne_zero _ hz)),
        lineOf_add hne, ?_⟩
      simp only [additionStep, Fq2.square_eq, Fq2.double_eq, Fq2.mulAssign_eq]
      subst hx hy
      refine Prod.ext ?_ (Prod.ext ?_ ?_)
      · dsimp only
        ring
      · dsimp only
        field_simp
        ring
      · dsimp only
        field_simp
        ring

end Verif.Tower
