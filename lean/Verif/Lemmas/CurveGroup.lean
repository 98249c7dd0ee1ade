import Mathlib.Tactic.FieldSimp
import Mathlib.Tactic.LinearCombination
import Verif.Spec.CurveGroup

/-! The formulas for points are the group law. -/

namespace Verif.Spec

open WeierstrassCurve.Affine

variable {F : Type} [Field F]

theorem equation_curve {b x y : F} : (curve b).Equation x y ↔ y ^ 2 = x ^ 3 + b := by
  rw [equation_iff]
  simp [curve]

theorem negY_curve {b : F} (x y : F) : (curve b).negY x y = -y := by
  simp [negY, curve]

theorem nonsingular_curve {b x y : F} (s : Smooth b) : (curve b).Nonsingular x y ↔ y ^ 2 = x ^ 3 + b := by
  rw [nonsingular_iff', equation_curve]
  refine ⟨fun h => h.1, fun h => ⟨h, ?_⟩⟩
  simp only [curve, zero_mul, mul_zero, add_zero, zero_sub, ne_eq, neg_eq_zero]
  by_contra hc
  push Not at hc
  obtain ⟨h1, h2⟩ := hc
  have hx : x = 0 := by
    rcases mul_eq_zero.1 h1 with h' | h'
    · exact absurd h' s.three
    · exact pow_eq_zero_iff (two_ne_zero) |>.1 h'
  have hy : y = 0 := (mul_eq_zero.1 h2).resolve_left s.two
  apply s.b
  rw [hx, hy] at h
  simpa using h.symm

theorem point_eq {b x y : F} (h : (curve b).Nonsingular x y) : y ^ 2 = x ^ 3 + b := equation_curve.1 h.1

theorem jac_zero {b : F} {p : Jac F} : JacIs p (0 : Pt b) ↔ p.z = 0 := Iff.rfl

theorem jac_some {b x y : F} {h : (curve b).Nonsingular x y} {p : Jac F} :
    JacIs p (Point.some x y h : Pt b) ↔ p.z ≠ 0 ∧ p.x = x * p.z ^ 2 ∧ p.y = y * p.z ^ 3 := Iff.rfl

theorem jac_congr {b : F} {p : Jac F} {A B : Pt b} (h : JacIs p A) (e : A = B) : JacIs p B := e ▸ h

variable [DecidableEq F]

/-- The sum of points with different first coordinates. -/
theorem add_points {b x1 y1 x2 y2 : F} {h1 : (curve b).Nonsingular x1 y1} {h2 : (curve b).Nonsingular x2 y2}
    (hx : x1 ≠ x2) : ∃ h : (curve b).Nonsingular (((y1 - y2) / (x1 - x2)) ^ 2 - x1 - x2)
      (-(((y1 - y2) / (x1 - x2)) * (((y1 - y2) / (x1 - x2)) ^ 2 - x1 - x2 - x1) + y1)),
      (Point.some x1 y1 h1 + Point.some x2 y2 h2 : Pt b) = Point.some _ _ h := by
  have e1 : (curve b).addX x1 x2 ((curve b).slope x1 x2 y1 y2) = ((y1 - y2) / (x1 - x2)) ^ 2 - x1 - x2 := by
    rw [slope_of_X_ne hx]
    simp [addX, curve]
  have e2 : (curve b).addY x1 x2 y1 ((curve b).slope x1 x2 y1 y2) =
      -(((y1 - y2) / (x1 - x2)) * (((y1 - y2) / (x1 - x2)) ^ 2 - x1 - x2 - x1) + y1) := by
    rw [addY, negY_curve, negAddY, e1, slope_of_X_ne hx]
  have hn := nonsingular_add h1 h2 (fun hxy => hx hxy.1)
  rw [e1, e2] at hn
  refine ⟨hn, ?_⟩
  rw [Point.add_of_X_ne hx]
  congr 1

/-- Twice a point that is not its own negative. -/
theorem double_point {b x y : F} (s : Smooth b) {h1 : (curve b).Nonsingular x y} (hy : y ≠ 0) :
    ∃ h : (curve b).Nonsingular ((3 * x ^ 2 / (2 * y)) ^ 2 - x - x)
      (-((3 * x ^ 2 / (2 * y)) * ((3 * x ^ 2 / (2 * y)) ^ 2 - x - x - x) + y)),
      (Point.some x y h1 + Point.some x y h1 : Pt b) = Point.some _ _ h := by
  have hne : y ≠ (curve b).negY x y := by
    rw [negY_curve]
    intro h
    have : (2 : F) * y = 0 := by linear_combination h
    exact (mul_eq_zero.1 this).elim s.two hy
  have e0 : (curve b).slope x x y y = 3 * x ^ 2 / (2 * y) := by
    rw [slope_of_Y_ne rfl hne, negY_curve]
    simp only [curve]
    congr 1 <;> ring
  have e1 : (curve b).addX x x ((curve b).slope x x y y) = (3 * x ^ 2 / (2 * y)) ^ 2 - x - x := by
    rw [e0]
    simp [addX, curve]
  have e2 : (curve b).addY x x y ((curve b).slope x x y y) =
      -((3 * x ^ 2 / (2 * y)) * ((3 * x ^ 2 / (2 * y)) ^ 2 - x - x - x) + y) := by
    rw [addY, negY_curve, negAddY, e1, e0]
  have hn := nonsingular_add h1 h1 (fun hxy => hne hxy.2)
  rw [e1, e2] at hn
  refine ⟨hn, ?_⟩
  rw [Point.add_self_of_Y_ne hne]
  congr 1

/-- Points with the same first coordinate and different second ones are opposite. -/
theorem opposite {b x y1 y2 : F} {h1 : (curve b).Nonsingular x y1} {h2 : (curve b).Nonsingular x y2} (hy : y1 ≠ y2) :
    (Point.some x y1 h1 + Point.some x y2 h2 : Pt b) = 0 := by
  refine Point.add_of_Y_eq rfl ?_
  rcases Y_eq_of_X_eq h1.1 h2.1 rfl with h | h
  · exact absurd h hy
  · exact h

theorem double_is {b : F} (s : Smooth b) {p : Jac F} {A : Pt b} (h : JacIs p A) : JacIs p.double (A + A) := by
  match A, h with
  | .zero, h =>
    have hz : p.z = 0 := h
    have : p.double = Jac.identity := by simp [Jac.double, Jac.isIdentity, hz]
    rw [this]
    exact jac_congr (jac_zero.2 rfl) (add_zero (0 : Pt b)).symm
  | .some x y hn, h =>
    obtain ⟨hz, hx, hy⟩ := jac_some.1 h
    unfold Jac.double
    dsimp only
    rw [if_neg (by simpa [Jac.isIdentity] using hz)]
    by_cases y0 : y = 0
    · refine jac_congr (A := 0) (jac_zero.2 ?_) ?_
      · dsimp only
        rw [hy, y0]
        ring
      · refine (Point.add_self_of_Y_eq ?_).symm
        rw [negY_curve, y0, neg_zero]
    · obtain ⟨hn', e⟩ := double_point s (h1 := hn) y0
      refine jac_congr ?_ e.symm
      have h2 := s.two
      refine jac_some.2 ⟨?_, ?_, ?_⟩
      · dsimp only
        rw [hy]
        have : p.z * (y * p.z ^ 3) + p.z * (y * p.z ^ 3) = 2 * y * p.z ^ 4 := by ring
        rw [this]
        exact mul_ne_zero (mul_ne_zero h2 y0) (pow_ne_zero _ hz)
      · dsimp only [sq]
        rw [hx, hy]
        field_simp
        ring
      · dsimp only [sq]
        rw [hx, hy]
        field_simp
        ring

theorem add_is {b : F} (s : Smooth b) {p q : Jac F} {A B : Pt b} (hp : JacIs p A) (hq : JacIs q B) :
    JacIs (p.add q) (A + B) := by
  match A, B, hp, hq with
  | .zero, B, hp, hq =>
    have hz : p.z = 0 := hp
    have : p.add q = q := by simp [Jac.add, Jac.isIdentity, hz]
    rw [this]
    exact jac_congr hq (zero_add B).symm
  | .some x y hn, .zero, hp, hq =>
    obtain ⟨hz, -, -⟩ := jac_some.1 hp
    have hz2 : q.z = 0 := hq
    have : p.add q = p := by simp [Jac.add, Jac.isIdentity, hz, hz2]
    rw [this]
    exact jac_congr hp (add_zero (Point.some x y hn : Pt b)).symm
  | .some x1 y1 h1, .some x2 y2 h2, hp, hq =>
    obtain ⟨z1, hx1, hy1⟩ := jac_some.1 hp
    obtain ⟨z2, hx2, hy2⟩ := jac_some.1 hq
    unfold Jac.add
    rw [if_neg (by simpa [Jac.isIdentity] using z1), if_neg (by simpa [Jac.isIdentity] using z2)]
    dsimp only
    have hu : (p.x * sq q.z = q.x * sq p.z) ↔ x1 = x2 := by
      rw [hx1, hx2]
      have e1 : x1 * p.z ^ 2 * sq q.z = x1 * (p.z * q.z) ^ 2 := by unfold sq; ring
      have e2 : x2 * q.z ^ 2 * sq p.z = x2 * (p.z * q.z) ^ 2 := by unfold sq; ring
      rw [e1, e2]
      exact mul_left_inj' (pow_ne_zero _ (mul_ne_zero z1 z2))
    have hs : (p.y * sq q.z * q.z = q.y * sq p.z * p.z) ↔ y1 = y2 := by
      rw [hy1, hy2]
      have e1 : y1 * p.z ^ 3 * sq q.z * q.z = y1 * (p.z * q.z) ^ 3 := by unfold sq; ring
      have e2 : y2 * q.z ^ 3 * sq p.z * p.z = y2 * (p.z * q.z) ^ 3 := by unfold sq; ring
      rw [e1, e2]
      exact mul_left_inj' (pow_ne_zero _ (mul_ne_zero z1 z2))
    by_cases hx : x1 = x2
    · rw [if_pos (hu.2 hx)]
      subst hx
      by_cases hy : y1 = y2
      · subst hy
        rw [if_pos (hs.2 rfl)]
        exact double_is s hp
      · rw [if_neg (fun h => hy (hs.1 h))]
        exact jac_congr (A := 0) (jac_zero.2 rfl) (opposite hy).symm
    · rw [if_neg (fun h => hx (hu.1 h))]
      obtain ⟨hn', e⟩ := add_points (h1 := h1) (h2 := h2) hx
      refine jac_congr ?_ e.symm
      have h2' := s.two
      have hx' : x1 - x2 ≠ 0 := sub_ne_zero.2 hx
      refine jac_some.2 ⟨?_, ?_, ?_⟩
      · dsimp only [sq]
        rw [hx1, hx2]
        have : ((p.z + q.z) * (p.z + q.z) - p.z * p.z - q.z * q.z) *
            (x2 * q.z ^ 2 * (p.z * p.z) - x1 * p.z ^ 2 * (q.z * q.z)) = -(2 * (p.z * q.z) ^ 3 * (x1 - x2)) := by ring
        rw [this]
        exact neg_ne_zero.2 (mul_ne_zero (mul_ne_zero h2' (pow_ne_zero _ (mul_ne_zero z1 z2))) hx')
      · dsimp only [sq]
        rw [hx1, hx2, hy1, hy2]
        field_simp
        ring
      · dsimp only [sq]
        rw [hx1, hx2, hy1, hy2]
        field_simp
        ring

omit [DecidableEq F] in
theorem neg_is {b : F} {p : Jac F} {A : Pt b} (h : JacIs p A) : JacIs p.neg (-A) := by
  match A, h with
  | .zero, h => exact h
  | .some x y hn, h =>
    obtain ⟨hz, hx, hy⟩ := jac_some.1 h
    refine jac_congr (A := Point.some x (-y) (by have := (nonsingular_neg x y).2 hn; rwa [negY_curve] at this)) ?_ ?_
    · refine jac_some.2 ⟨hz, hx, ?_⟩
      simp only [Jac.neg]
      rw [hy]
      ring
    · rw [Point.neg_some]
      congr 1
      exact (negY_curve x y).symm

theorem sub_is {b : F} (s : Smooth b) {p q : Jac F} {A B : Pt b} (hp : JacIs p A) (hq : JacIs q B) :
    JacIs (p.sub q) (A - B) := jac_congr (add_is s hp (neg_is hq)) (sub_eq_add_neg A B).symm

theorem sum_is {b : F} (s : Smooth b) {l : List (Jac F)} {L : List (Pt b)} (h : List.Forall₂ JacIs l L) :
    JacIs (Jac.sum l) L.sum := by
  have key : ∀ (l : List (Jac F)) (L : List (Pt b)) (p : Jac F) (A : Pt b), List.Forall₂ JacIs l L → JacIs p A →
      JacIs (l.foldl Jac.add p) (A + L.sum) := by
    intro l L p A h
    induction h generalizing p A with
    | nil => intro hp; simpa using hp
    | cons h1 _ ih =>
      intro hp
      rw [List.foldl_cons, List.sum_cons, ← add_assoc]
      exact ih _ _ (add_is s hp h1)
  have := key l L Jac.identity 0 h (jac_zero.2 rfl)
  rwa [zero_add] at this

/-- Affine coordinates as Jacobian ones. -/
theorem toCurve_is {b : F} (s : Smooth b) {p : Aff F} {A : Pt b} (h : AffIs p A) : JacIs p.toCurve A := by
  match A, h with
  | .zero, h =>
    have h' : p = ⟨0, 0⟩ := h
    subst h'
    show (Aff.toCurve _).z = 0
    simp [Aff.toCurve, Aff.isIdentity]
  | .some x y hn, h =>
    have h' : p = ⟨x, y⟩ := h
    subst h'
    have hne : ¬ (x = 0 ∧ y = 0) := by
      rintro ⟨rfl, rfl⟩
      have := point_eq hn
      simp at this
      exact s.b this.symm
    refine jac_some.2 ?_
    simp [Aff.toCurve, Aff.isIdentity, hne]

theorem isIdentity_aff {b : F} (s : Smooth b) {p : Aff F} {A : Pt b} (h : AffIs p A) : p.isIdentity = decide (A = 0) := by
  match A, h with
  | .zero, h =>
    have h' : p = ⟨0, 0⟩ := h
    subst h'
    simp only [Aff.isIdentity, decide_true, Bool.and_self]
    exact (decide_eq_true (rfl : (Point.zero : Pt b) = 0)).symm
  | .some x y hn, h =>
    have h' : p = ⟨x, y⟩ := h
    subst h'
    have hne : ¬ (x = 0 ∧ y = 0) := by
      rintro ⟨rfl, rfl⟩
      have := point_eq hn
      simp at this
      exact s.b this.symm
    rw [decide_eq_false (Point.some_ne_zero hn)]
    simpa [Aff.isIdentity] using hne

/-- Adding an affine point is adding it as a Jacobian one. -/
theorem addMixed_is {b : F} (s : Smooth b) {p : Jac F} {q : Aff F} {A B : Pt b} (hp : JacIs p A) (hq : AffIs q B) :
    JacIs (p.addMixed q) (A + B) := by
  have hqc := toCurve_is s hq
  have hid := isIdentity_aff s hq
  match A, B, hp, hq with
  | .zero, B, hp, hq =>
    have hz : p.z = 0 := hp
    have : p.addMixed q = q.toCurve := by simp [Jac.addMixed, Jac.isIdentity, hz]
    rw [this]
    exact jac_congr hqc (zero_add B).symm
  | .some x y hn, .zero, hp, hq =>
    obtain ⟨hz, -, -⟩ := jac_some.1 hp
    have hi : q.isIdentity = true := by rw [hid]; exact decide_eq_true rfl
    have : p.addMixed q = p := by simp [Jac.addMixed, Jac.isIdentity, hz, hi]
    rw [this]
    exact jac_congr hp (add_zero (Point.some x y hn : Pt b)).symm
  | .some x1 y1 h1, .some x2 y2 h2, hp, hq =>
    obtain ⟨z1, hx1, hy1⟩ := jac_some.1 hp
    have hi : q.isIdentity = false := by rw [hid]; exact decide_eq_false (Point.some_ne_zero h2)
    have hq' : q = ⟨x2, y2⟩ := hq
    subst hq'
    unfold Jac.addMixed
    rw [if_neg (by simpa [Jac.isIdentity] using z1), hi, if_neg (by simp)]
    dsimp only
    have hu : (p.x = x2 * sq p.z) ↔ x1 = x2 := by
      rw [hx1, show sq p.z = p.z ^ 2 by unfold sq; ring]
      exact mul_left_inj' (pow_ne_zero _ z1)
    have hs : (p.y = y2 * sq p.z * p.z) ↔ y1 = y2 := by
      rw [hy1, show y2 * sq p.z * p.z = y2 * p.z ^ 3 by unfold sq; ring]
      exact mul_left_inj' (pow_ne_zero _ z1)
    by_cases hx : x1 = x2
    · rw [if_pos (hu.2 hx)]
      subst hx
      by_cases hy : y1 = y2
      · subst hy
        rw [if_pos (hs.2 rfl)]
        exact double_is s hp
      · rw [if_neg (fun h => hy (hs.1 h))]
        exact jac_congr (A := 0) (jac_zero.2 rfl) (opposite hy).symm
    · rw [if_neg (fun h => hx (hu.1 h))]
      obtain ⟨hn', e⟩ := add_points (h1 := h1) (h2 := h2) hx
      refine jac_congr ?_ e.symm
      have h2' := s.two
      have hx' : x1 - x2 ≠ 0 := sub_ne_zero.2 hx
      refine jac_some.2 ⟨?_, ?_, ?_⟩
      · dsimp only [sq]
        rw [hx1]
        have : (p.z + (x2 * (p.z * p.z) - x1 * p.z ^ 2)) * (p.z + (x2 * (p.z * p.z) - x1 * p.z ^ 2)) - p.z * p.z -
            (x2 * (p.z * p.z) - x1 * p.z ^ 2) * (x2 * (p.z * p.z) - x1 * p.z ^ 2) = -(2 * p.z ^ 3 * (x1 - x2)) := by
          ring
        rw [this]
        exact neg_ne_zero.2 (mul_ne_zero (mul_ne_zero h2' (pow_ne_zero _ z1)) hx')
      · dsimp only [sq]
        rw [hx1, hy1]
        field_simp
        ring
      · dsimp only [sq]
        rw [hx1, hy1]
        field_simp
        ring

theorem affAdd_is {b : F} (s : Smooth b) {p q : Aff F} {A B : Pt b} (hp : AffIs p A) (hq : AffIs q B) :
    JacIs (p.add q) (A + B) := by
  have hpc := toCurve_is s hp
  have hqc := toCurve_is s hq
  have hidp := isIdentity_aff s hp
  have hidq := isIdentity_aff s hq
  match A, B, hp, hq with
  | .zero, B, hp, hq =>
    have hi : p.isIdentity = true := by rw [hidp]; exact decide_eq_true rfl
    have : p.add q = q.toCurve := by simp [Aff.add, hi]
    rw [this]
    exact jac_congr hqc (zero_add B).symm
  | .some x y hn, .zero, hp, hq =>
    have hi : p.isIdentity = false := by rw [hidp]; exact decide_eq_false (Point.some_ne_zero hn)
    have hi2 : q.isIdentity = true := by rw [hidq]; exact decide_eq_true rfl
    have : p.add q = p.toCurve := by simp [Aff.add, hi, hi2]
    rw [this]
    exact jac_congr hpc (add_zero (Point.some x y hn : Pt b)).symm
  | .some x1 y1 h1, .some x2 y2 h2, hp, hq =>
    have hi : p.isIdentity = false := by rw [hidp]; exact decide_eq_false (Point.some_ne_zero h1)
    have hi2 : q.isIdentity = false := by rw [hidq]; exact decide_eq_false (Point.some_ne_zero h2)
    have hp' : p = ⟨x1, y1⟩ := hp
    have hq' : q = ⟨x2, y2⟩ := hq
    subst hp' hq'
    unfold Aff.add
    rw [hi, hi2, if_neg (by simp), if_neg (by simp)]
    dsimp only
    by_cases hx : x1 = x2
    · rw [if_pos hx]
      subst hx
      by_cases hy : y1 = y2
      · subst hy
        rw [if_pos rfl]
        exact double_is s hpc
      · rw [if_neg hy]
        exact jac_congr (A := 0) (jac_zero.2 rfl) (opposite hy).symm
    · rw [if_neg hx]
      obtain ⟨hn', e⟩ := add_points (h1 := h1) (h2 := h2) hx
      refine jac_congr ?_ e.symm
      have h2' := s.two
      have hx' : x1 - x2 ≠ 0 := sub_ne_zero.2 hx
      refine jac_some.2 ⟨?_, ?_, ?_⟩
      · dsimp only [sq]
        have : x2 - x1 + (x2 - x1) = -(2 * (x1 - x2)) := by ring
        rw [this]
        exact neg_ne_zero.2 (mul_ne_zero h2' hx')
      · dsimp only [sq]
        field_simp
        ring
      · dsimp only [sq]
        field_simp
        ring

omit [DecidableEq F] in
theorem affNeg_is {b : F} {p : Aff F} {A : Pt b} (h : AffIs p A) : AffIs p.neg (-A) := by
  match A, h with
  | .zero, h =>
    have h' : p = ⟨0, 0⟩ := h
    subst h'
    show Aff.neg _ = _
    simp [Aff.neg]
  | .some x y hn, h =>
    have h' : p = ⟨x, y⟩ := h
    subst h'
    show Aff.neg _ = _
    rw [negY_curve]
    rfl

/-- The affine coordinates of a point. -/
theorem toAffine_is {b : F} {p : Jac F} {A : Pt b} (h : JacIs p A) : AffIs p.toAffine A := by
  match A, h with
  | .zero, h =>
    have hz : p.z = 0 := h
    show p.toAffine = _
    simp [Jac.toAffine, hz, Aff.identity]
  | .some x y hn, h =>
    obtain ⟨hz, hx, hy⟩ := jac_some.1 h
    show p.toAffine = _
    have hzi : p.z⁻¹ ≠ 0 := inv_ne_zero hz
    unfold Jac.toAffine
    dsimp only
    rw [if_neg hzi, hx, hy]
    unfold sq
    congr 1
    · field_simp
    · field_simp

/-- Equality of Jacobian coordinates is equality of points. -/
theorem ctEq_is {b : F} {p q : Jac F} {A B : Pt b} (hp : JacIs p A) (hq : JacIs q B) : p.ctEq q = decide (A = B) := by
  unfold Jac.ctEq Jac.isIdentity
  dsimp only
  match A, B, hp, hq with
  | .zero, .zero, hp, hq =>
    have h1 : p.z = 0 := hp
    have h2 : q.z = 0 := hq
    simp [h1, h2]
  | .zero, .some x y hn, hp, hq =>
    have h1 : p.z = 0 := hp
    obtain ⟨h2, -, -⟩ := jac_some.1 hq
    simp [h1, h2]
  | .some x y hn, .zero, hp, hq =>
    have h2 : q.z = 0 := hq
    obtain ⟨h1, -, -⟩ := jac_some.1 hp
    simp [h1, h2]
  | .some x1 y1 h1, .some x2 y2 h2, hp, hq =>
    obtain ⟨z1, hx1, hy1⟩ := jac_some.1 hp
    obtain ⟨z2, hx2, hy2⟩ := jac_some.1 hq
    have hu : (p.x * sq q.z = q.x * sq p.z) ↔ x1 = x2 := by
      rw [hx1, hx2]
      have e1 : x1 * p.z ^ 2 * sq q.z = x1 * (p.z * q.z) ^ 2 := by unfold sq; ring
      have e2 : x2 * q.z ^ 2 * sq p.z = x2 * (p.z * q.z) ^ 2 := by unfold sq; ring
      rw [e1, e2]
      exact mul_left_inj' (pow_ne_zero _ (mul_ne_zero z1 z2))
    have hs : (p.y * (sq q.z * q.z) = q.y * (sq p.z * p.z)) ↔ y1 = y2 := by
      rw [hy1, hy2]
      have e1 : y1 * p.z ^ 3 * (sq q.z * q.z) = y1 * (p.z * q.z) ^ 3 := by unfold sq; ring
      have e2 : y2 * q.z ^ 3 * (sq p.z * p.z) = y2 * (p.z * q.z) ^ 3 := by unfold sq; ring
      rw [e1, e2]
      exact mul_left_inj' (pow_ne_zero _ (mul_ne_zero z1 z2))
    simp [z1, z2, hu, hs]

/-- Coordinates that pass the check are those of a point. -/
theorem onCurve_jac {b : F} (s : Smooth b) (p : Jac F) : p.isOnCurve b = true ↔ ∃ A : Pt b, JacIs p A := by
  unfold Jac.isOnCurve sq
  simp only [Bool.or_eq_true, decide_eq_true_eq]
  constructor
  · intro h
    by_cases hz : p.z = 0
    · exact ⟨0, hz⟩
    · have h' := h.resolve_right hz
      refine ⟨Point.some (p.x / p.z ^ 2) (p.y / p.z ^ 3) ((nonsingular_curve s).2 ?_), jac_some.2 ⟨hz, ?_, ?_⟩⟩
      · field_simp
        linear_combination h'
      · field_simp
      · field_simp
  · rintro ⟨A, h⟩
    match A, h with
    | .zero, h => exact .inr h
    | .some x y hn, h =>
      obtain ⟨-, hx, hy⟩ := jac_some.1 h
      left
      rw [hx, hy]
      have := point_eq hn
      linear_combination p.z ^ 6 * this

theorem onCurve_aff {b : F} (s : Smooth b) (p : Aff F) : p.isOnCurve b = true ↔ ∃ A : Pt b, AffIs p A := by
  unfold Aff.isOnCurve Aff.isIdentity sq
  simp only [Bool.or_eq_true, decide_eq_true_eq, Bool.and_eq_true]
  constructor
  · rintro (h | ⟨h1, h2⟩)
    · exact ⟨Point.some p.x p.y ((nonsingular_curve s).2 (by linear_combination h)), rfl⟩
    · refine ⟨0, ?_⟩
      obtain ⟨x, y⟩ := p
      dsimp only at h1 h2
      subst h1 h2
      rfl
  · rintro ⟨A, h⟩
    match A, h with
    | .zero, h =>
      have h' : p = ⟨0, 0⟩ := h
      subst h'
      exact .inr ⟨rfl, rfl⟩
    | .some x y hn, h =>
      have h' : p = ⟨x, y⟩ := h
      subst h'
      left
      have := point_eq hn
      linear_combination this

omit [DecidableEq F] in
/-- Coordinates stand for at most one point. -/
theorem jac_unique {b : F} {p : Jac F} {A B : Pt b} (h1 : JacIs p A) (h2 : JacIs p B) : A = B := by
  match A, B, h1, h2 with
  | .zero, .zero, _, _ => rfl
  | .zero, .some x y hn, h1, h2 => exact absurd h1 h2.1
  | .some x y hn, .zero, h1, h2 => exact absurd h2 h1.1
  | .some x1 y1 n1, .some x2 y2 n2, h1, h2 =>
    have hx : x1 = x2 := mul_right_cancel₀ (pow_ne_zero 2 h1.1) (h1.2.1.symm.trans h2.2.1)
    have hy : y1 = y2 := mul_right_cancel₀ (pow_ne_zero 3 h1.1) (h1.2.2.symm.trans h2.2.2)
    subst hx hy
    rfl

theorem aff_unique {b : F} (s : Smooth b) {p : Aff F} {A B : Pt b} (h1 : AffIs p A) (h2 : AffIs p B) : A = B :=
  jac_unique (toCurve_is s h1) (toCurve_is s h2)

end Verif.Spec
