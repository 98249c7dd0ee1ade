import Verif.Spec.Ecc
import Verif.Lemmas.Gadget
import Verif.Lemmas.CurveGroup

namespace Verif.Lemmas.Ecc

open Verif.Gadget Verif.Spec.Gadget Verif.Lemmas.Gadget Verif.Spec Verif.Spec.Ecc
open Verif.FloorPlanner (Call)
open WeierstrassCurve.Affine

variable {F : Type} [Field F] {b : F}

/-! Points. -/

theorem coords_injective (s : Smooth b) : Function.Injective (coords : Pt b → F × F) := by
  have key : ∀ {x y : F}, (curve b).Nonsingular x y → (x, y) ≠ (0, 0) := by
    intro x y h e
    have h' := point_eq h
    rw [Prod.mk.injEq] at e
    obtain ⟨rfl, rfl⟩ := e
    exact s.b (by simpa using h'.symm)
  intro P Q h
  match P, Q, h with
  | .zero, .zero, _ => rfl
  | .zero, .some x y hn, h => exact absurd h.symm (key hn)
  | .some x y hn, .zero, h => exact absurd h (key hn)
  | .some x y hn, .some x' y' hn', h =>
    have : x = x' ∧ y = y' := by simpa [coords] using h
    obtain ⟨rfl, rfl⟩ := this
    rfl

theorem exists_point (s : Smooth b) {x y : F} (h : y ^ 2 = x ^ 3 + b) : ∃ P : Pt b, P ≠ 0 ∧ coords P = (x, y) :=
  ⟨.some x y ((nonsingular_curve s).2 h), Point.some_ne_zero _, rfl⟩

theorem coords_curve {P : Pt b} (h : P ≠ 0) : (coords P).2 ^ 2 = (coords P).1 ^ 3 + b := by
  match P, h with
  | .zero, h => exact absurd rfl h
  | .some x y hn, _ => exact point_eq hn

theorem coords_zero : coords (0 : Pt b) = (0, 0) := rfl

theorem coords_x_ne (u : Usable b) {P : Pt b} (h : P ≠ 0) : (coords P).1 ≠ 0 := by
  intro e
  have := coords_curve h
  rw [e] at this
  exact u.x _ (by simpa using this)

theorem coords_y_ne (u : Usable b) {P : Pt b} (h : P ≠ 0) : (coords P).2 ≠ 0 := by
  intro e
  have := coords_curve h
  rw [e] at this
  exact u.y _ (by rw [← this]; simp)

theorem coords_neg (P : Pt b) : coords (-P) = ((coords P).1, -(coords P).2) := by
  match P with
  | .zero => show ((0 : F), (0 : F)) = (0, -0); rw [neg_zero]
  | .some x y hn => rw [Point.neg_some]; show (x, (curve b).negY x y) = _; rw [negY_curve]; rfl

variable [DecidableEq F]

/-- Sum of points with different first coordinates. -/
theorem coords_add {P Q : Pt b} (hP : P ≠ 0) (hQ : Q ≠ 0) {l : F}
    (hx : (coords P).1 ≠ (coords Q).1) (hl : l * ((coords Q).1 - (coords P).1) = (coords Q).2 - (coords P).2) :
    coords (P + Q) = (l ^ 2 - (coords P).1 - (coords Q).1,
      l * ((coords P).1 - (l ^ 2 - (coords P).1 - (coords Q).1)) - (coords P).2) := by
  match P, Q, hP, hQ with
  | .some x y h, .some x' y' h', _, _ =>
    simp only [coords] at hx hl
    obtain ⟨hn, e⟩ := add_points (h1 := h) (h2 := h') hx
    rw [e]
    have e1 : (y - y') / (x - x') = l := by
      rw [div_eq_iff (sub_ne_zero.2 hx)]; linear_combination hl
    simp only [coords, e1, Prod.mk.injEq, true_and]
    ring

/-- Twice a point. -/
theorem coords_double (s : Smooth b) {P : Pt b} (hP : P ≠ 0) (hy : (coords P).2 ≠ 0) {l : F}
    (hl : 2 * (coords P).2 * l = 3 * (coords P).1 ^ 2) :
    coords (P + P) = (l ^ 2 - (coords P).1 - (coords P).1,
      l * ((coords P).1 - (l ^ 2 - (coords P).1 - (coords P).1)) - (coords P).2) := by
  match P, hP with
  | .some x y h, _ =>
    simp only [coords] at hy hl
    obtain ⟨hn, e⟩ := double_point s (h1 := h) hy
    rw [e]
    have e1 : 3 * x ^ 2 / (2 * y) = l := by
      rw [div_eq_iff (mul_ne_zero s.two hy)]; linear_combination -hl
    simp only [coords, e1, Prod.mk.injEq, true_and]
    ring

theorem same_x {P Q : Pt b} (hP : P ≠ 0) (hQ : Q ≠ 0) (hx : (coords P).1 = (coords Q).1) : Q = P ∨ Q = -P := by
  match P, Q, hP, hQ with
  | .some x y h, .some x' y' h', _, _ =>
    simp only [coords] at hx
    subst hx
    by_cases hy : y = y'
    · subst hy; exact Or.inl rfl
    · right
      exact (eq_neg_of_add_eq_zero_left (by rw [add_comm]; exact opposite hy))

/-! Complete addition, of numbers. -/

/-- The constraints of complete addition. -/
structure AddEqs (xp yp xq yq xr yr l α β γ δ : F) : Prop where
  e1 : (xq - xp) * ((xq - xp) * l - (yq - yp)) = 0
  e2 : (1 - (xq - xp) * α) * (2 * yp * l - 3 * (xp * xp)) = 0
  e3a : xp * xq * (xq - xp) * (l * l - xp - xq - xr) = 0
  e3b : xp * xq * (xq - xp) * (l * (xp - xr) - yp - yr) = 0
  e3c : xp * xq * (yq + yp) * (l * l - xp - xq - xr) = 0
  e3d : xp * xq * (yq + yp) * (l * (xp - xr) - yp - yr) = 0
  e4a : (1 - xp * β) * (xr - xq) = 0
  e4b : (1 - xp * β) * (yr - yq) = 0
  e5a : (1 - xq * γ) * (xr - xp) = 0
  e5b : (1 - xq * γ) * (yr - yp) = 0
  e6a : (1 - (xq - xp) * α - (yq + yp) * δ) * xr = 0
  e6b : (1 - (xq - xp) * α - (yq + yp) * δ) * yr = 0

theorem addEqs_sound (u : Usable b) {P Q : Pt b} {xr yr l α β γ δ : F}
    (h : AddEqs (coords P).1 (coords P).2 (coords Q).1 (coords Q).2 xr yr l α β γ δ) : (xr, yr) = coords (P + Q) := by
  by_cases hP : P = 0
  · subst hP
    rw [zero_add]
    have h1 := h.e4a
    have h2 := h.e4b
    simp only [coords_zero, zero_mul, sub_zero, one_mul, sub_eq_zero] at h1 h2
    rw [h1, h2]
  by_cases hQ : Q = 0
  · subst hQ
    rw [add_zero]
    have h1 := h.e5a
    have h2 := h.e5b
    simp only [coords_zero, zero_mul, sub_zero, one_mul, sub_eq_zero] at h1 h2
    rw [h1, h2]
  have hxp := coords_x_ne u hP
  have hxq := coords_x_ne u hQ
  have fin : ∀ t : F, t ≠ 0 → (coords P).1 * (coords Q).1 * t * (l * l - (coords P).1 - (coords Q).1 - xr) = 0 →
      (coords P).1 * (coords Q).1 * t * (l * ((coords P).1 - xr) - (coords P).2 - yr) = 0 →
      (xr, yr) = (l ^ 2 - (coords P).1 - (coords Q).1,
        l * ((coords P).1 - (l ^ 2 - (coords P).1 - (coords Q).1)) - (coords P).2) := by
    intro t ht h1 h2
    have h3 := (mul_eq_zero.1 h1).resolve_left (mul_ne_zero (mul_ne_zero hxp hxq) ht)
    have h4 := (mul_eq_zero.1 h2).resolve_left (mul_ne_zero (mul_ne_zero hxp hxq) ht)
    have e : xr = l ^ 2 - (coords P).1 - (coords Q).1 := by linear_combination -h3
    rw [Prod.mk.injEq]
    refine ⟨e, ?_⟩
    rw [← e]
    linear_combination -h4
  by_cases hx : (coords P).1 = (coords Q).1
  · rcases same_x hP hQ hx with rfl | rfl
    · have hy := coords_y_ne u hP
      have h2y : (coords Q).2 + (coords Q).2 ≠ 0 := by rw [← two_mul]; exact mul_ne_zero u.smooth.two hy
      have h2 := h.e2
      rw [sub_self, zero_mul, sub_zero, one_mul, sub_eq_zero] at h2
      rw [coords_double u.smooth hP hy (l := l) (by linear_combination h2)]
      exact fin _ h2y h.e3c h.e3d
    · rw [add_neg_cancel]
      have h1 := h.e6a
      have h2 := h.e6b
      simp only [coords_neg, sub_self, zero_mul, neg_add_cancel, sub_zero, one_mul] at h1 h2
      rw [h1, h2]
      rfl
  · have hd : (coords Q).1 - (coords P).1 ≠ 0 := sub_ne_zero.2 (Ne.symm hx)
    have h1 := (mul_eq_zero.1 h.e1).resolve_left hd
    rw [coords_add hP hQ (l := l) hx (by linear_combination h1)]
    exact fin _ hd h.e3a h.e3b

/-- The values assigned meet the constraints. -/
theorem addEqs_complete (u : Usable b) {P Q : Pt b} :
    AddEqs (coords P).1 (coords P).2 (coords Q).1 (coords Q).2
      (AddComplete.sum (coords P).1 (coords P).2 (coords Q).1 (coords Q).2).1
      (AddComplete.sum (coords P).1 (coords P).2 (coords Q).1 (coords Q).2).2
      (AddComplete.slope (coords P).1 (coords P).2 (coords Q).1 (coords Q).2)
      ((coords Q).1 - (coords P).1)⁻¹ (coords P).1⁻¹ (coords Q).1⁻¹
      (if (coords Q).1 = (coords P).1 then ((coords Q).2 + (coords P).2)⁻¹ else 0) := by
  have h2 := u.smooth.two
  by_cases hP : P = 0
  · subst hP
    by_cases hQ : Q = 0
    · subst hQ
      constructor <;> simp [coords_zero, AddComplete.sum, AddComplete.slope]
    · have hxq := coords_x_ne u hQ
      constructor <;> simp [coords_zero, AddComplete.sum, AddComplete.slope, hxq]
      field_simp
      simp
  by_cases hQ : Q = 0
  · subst hQ
    have hxp := coords_x_ne u hP
    have hxp' := Ne.symm hxp
    constructor <;> simp [coords_zero, AddComplete.sum, AddComplete.slope, hxp, hxp']
    field_simp
    simp
  have hxp := coords_x_ne u hP
  have hxq := coords_x_ne u hQ
  by_cases hx : (coords P).1 = (coords Q).1
  · rcases same_x hP hQ hx with rfl | rfl
    · have hy := coords_y_ne u hP
      have h2y : (coords Q).2 + (coords Q).2 ≠ 0 := by rw [← two_mul]; exact mul_ne_zero h2 hy
      have hne : (coords Q).2 ≠ -(coords Q).2 := fun e => h2y (by linear_combination e)
      constructor <;> simp [AddComplete.sum, AddComplete.slope, hxp, hy, hne, h2y]
      · field_simp
        ring
      · ring
    · have hy := coords_y_ne u hP
      constructor <;> simp [coords_neg, AddComplete.sum, AddComplete.slope, hxp, hy]
      field_simp
      ring
  · have hx' : ¬ (coords Q).1 = (coords P).1 := fun e => hx e.symm
    have hd : (coords Q).1 - (coords P).1 ≠ 0 := sub_ne_zero.2 hx'
    constructor <;> simp [AddComplete.sum, AddComplete.slope, hxp, hxq, hx', hd]
    · field_simp
      ring
    · ring
    · right; ring

theorem sum_coords (u : Usable b) (P Q : Pt b) :
    AddComplete.sum (coords P).1 (coords P).2 (coords Q).1 (coords Q).2 = coords (P + Q) :=
  addEqs_sound u (addEqs_complete u)

end Verif.Lemmas.Ecc
