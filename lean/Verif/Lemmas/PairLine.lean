import Verif.Lemmas.CurveGroup

/-! Lines through points of `y² = x³ + b`, and how lines evaluate on one another's points. -/

namespace Verif.Spec

open WeierstrassCurve.Affine

variable {F : Type} [Field F]

/-- `a1, a2, a3` are the first coordinates of the points of the curve on the line `y = l x + n`. -/
structure Meets (b l n a1 a2 a3 : F) : Prop where
  e1 : a1 + a2 + a3 = l ^ 2
  e2 : a1 * a2 + a1 * a3 + a2 * a3 = -2 * l * n
  e3 : a1 * a2 * a3 = n ^ 2 - b

/-- The line `y = l x + n` meets the curve in `A`, `B` and `-(A + B)`. -/
def LineOf [DecidableEq F] {b : F} (A B : Pt b) (l n : F) : Prop :=
  ∃ a1 a2 a3, ∃ h1 : (curve b).Nonsingular a1 (l * a1 + n), ∃ h2 : (curve b).Nonsingular a2 (l * a2 + n),
    ∃ h3 : (curve b).Nonsingular a3 (l * a3 + n),
    A = .some a1 _ h1 ∧ B = .some a2 _ h2 ∧ -(A + B) = .some a3 _ h3 ∧ Meets b l n a1 a2 a3

/-- Reciprocity for two lines. -/
theorem reciprocity {b l n l' n' a1 a2 a3 x1 x2 x3 : F} (h : Meets b l n a1 a2 a3) (h' : Meets b l' n' x1 x2 x3) :
    (l' * x1 + n' - l * x1 - n) * (l' * x2 + n' - l * x2 - n) * (l' * x3 + n' - l * x3 - n) =
      -((l * a1 + n - l' * a1 - n') * (l * a2 + n - l' * a2 - n') * (l * a3 + n - l' * a3 - n')) := by
  have e1 := h.e1
  have e2 := h.e2
  have e3 := h.e3
  have f1 := h'.e1
  have f2 := h'.e2
  have f3 := h'.e3
  linear_combination (n' - n) ^ 2 * (l' - l) * (f1 - e1) + (n' - n) * (l' - l) ^ 2 * (f2 - e2) + (l' - l) ^ 3 * (f3 - e3)

/-- The points of a line, at another point: all three together. -/
theorem meets_eval {b l n a1 a2 a3 : F} (h : Meets b l n a1 a2 a3) (t : F) :
    t ^ 3 + b - (l * t + n) ^ 2 = (t - a1) * (t - a2) * (t - a3) := by
  linear_combination t ^ 2 * h.e1 - t * h.e2 + h.e3

variable [DecidableEq F]

theorem lineOf_add {b x1 y1 x2 y2 : F} {h1 : (curve b).Nonsingular x1 y1} {h2 : (curve b).Nonsingular x2 y2}
    (hx : x1 ≠ x2) : LineOf (.some x1 y1 h1 : Pt b) (.some x2 y2 h2) ((y1 - y2) / (x1 - x2)) (y1 - (y1 - y2) / (x1 - x2) * x1) := by
  obtain ⟨hn, e⟩ := add_points (h1 := h1) (h2 := h2) hx
  have hd : x1 - x2 ≠ 0 := sub_ne_zero.2 hx
  set l := (y1 - y2) / (x1 - x2) with hl
  have hl' : l * (x1 - x2) = y1 - y2 := div_mul_cancel₀ _ hd
  have q1 := point_eq h1
  have q2 := point_eq h2
  have y1e : y1 = l * x1 + (y1 - l * x1) := by ring
  have y2e : y2 = l * x2 + (y1 - l * x1) := by linear_combination hl'
  have hneg : -(Point.some x1 y1 h1 + Point.some x2 y2 h2 : Pt b) = .some (l ^ 2 - x1 - x2) (l * (l ^ 2 - x1 - x2) + (y1 - l * x1))
      (by
        have := (nonsingular_neg _ _).2 hn
        rw [negY_curve] at this
        convert this using 1
        ring) := by
    rw [e, Point.neg_some]
    congr 1
    rw [negY_curve]
    ring
  refine ⟨x1, x2, l ^ 2 - x1 - x2, y1e ▸ h1, y2e ▸ h2, _, ?_, ?_, hneg, ?_⟩
  · congr 1
  · congr 1
  · have key : (x1 - x2) * (x1 * x2 + x1 * (l ^ 2 - x1 - x2) + x2 * (l ^ 2 - x1 - x2) + 2 * l * (y1 - l * x1)) = 0 := by
      linear_combination q1 - q2 + (y2 + y1 - l * (x1 - x2)) * hl'
    have e2 : x1 * x2 + x1 * (l ^ 2 - x1 - x2) + x2 * (l ^ 2 - x1 - x2) = -2 * l * (y1 - l * x1) := by
      have := (mul_eq_zero.1 key).resolve_left hd
      linear_combination this
    refine ⟨by ring, e2, ?_⟩
    linear_combination x1 * e2 - q1

theorem lineOf_double {b x y : F} (s : Smooth b) {h1 : (curve b).Nonsingular x y} (hy : y ≠ 0) :
    LineOf (.some x y h1 : Pt b) (.some x y h1) (3 * x ^ 2 / (2 * y)) (y - 3 * x ^ 2 / (2 * y) * x) := by
  obtain ⟨hn, e⟩ := double_point s (h1 := h1) hy
  have hd : 2 * y ≠ 0 := mul_ne_zero s.two hy
  set l := 3 * x ^ 2 / (2 * y) with hl
  have hl' : l * (2 * y) = 3 * x ^ 2 := div_mul_cancel₀ _ hd
  have q1 := point_eq h1
  have y1e : y = l * x + (y - l * x) := by ring
  have hneg : -(Point.some x y h1 + Point.some x y h1 : Pt b) = .some (l ^ 2 - x - x) (l * (l ^ 2 - x - x) + (y - l * x))
      (by
        have := (nonsingular_neg _ _).2 hn
        rw [negY_curve] at this
        convert this using 1
        ring) := by
    rw [e, Point.neg_some]
    congr 1
    rw [negY_curve]
    ring
  refine ⟨x, x, l ^ 2 - x - x, y1e ▸ h1, y1e ▸ h1, _, ?_, ?_, hneg, ?_⟩
  · congr 1
  · congr 1
  · have e2 : x * x + x * (l ^ 2 - x - x) + x * (l ^ 2 - x - x) = -2 * l * (y - l * x) := by
      linear_combination hl'
    refine ⟨by ring, e2, ?_⟩
    linear_combination x * e2 - q1

/-- Two points whose sum is not zero have a line. -/
theorem lineOf_exists {b : F} (s : Smooth b) {A B : Pt b} (hA : A ≠ 0) (hB : B ≠ 0) (hAB : A + B ≠ 0) :
    ∃ l n, LineOf A B l n := by
  match A, B with
  | .zero, _ => exact absurd rfl hA
  | .some _ _ _, .zero => exact absurd rfl hB
  | .some x1 y1 h1, .some x2 y2 h2 =>
    by_cases hx : x1 = x2
    · subst hx
      by_cases hy : y1 = y2
      · subst hy
        have h0 : y1 ≠ 0 := by
          rintro rfl
          apply hAB
          refine Point.add_self_of_Y_eq ?_
          rw [negY_curve, neg_zero]
        exact ⟨_, _, lineOf_double s h0⟩
      · exact absurd (opposite hy) hAB
    · exact ⟨_, _, lineOf_add hx⟩

end Verif.Spec
