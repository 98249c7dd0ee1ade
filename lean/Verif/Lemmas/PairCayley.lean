import Verif.Lemmas.PairLine

/-! Nine points on three lines and again on three lines: the products of the lines agree on the curve up to a constant. -/

namespace Verif.Spec

open WeierstrassCurve.Affine Polynomial CoordinateRing
open scoped Polynomial.Bivariate

variable {F : Type} [Field F] [DecidableEq F]

theorem lineOf_points {b : F} {A B : Pt b} {l n : F} (h : LineOf A B l n) : ∃ a1 a2, ∃ h1 : (curve b).Nonsingular a1 (l * a1 + n),
    ∃ h2 : (curve b).Nonsingular a2 (l * a2 + n), A = .some _ _ h1 ∧ B = .some _ _ h2 ∧
    ¬ (a1 = a2 ∧ l * a1 + n = (curve b).negY a2 (l * a2 + n)) ∧ l = (curve b).slope a1 a2 (l * a1 + n) (l * a2 + n) := by
  obtain ⟨a1, a2, a3, h1, h2, h3, rfl, rfl, e, M⟩ := h
  have hxy : ¬ (a1 = a2 ∧ l * a1 + n = (curve b).negY a2 (l * a2 + n)) := by
    rintro ⟨hx, hy⟩
    rw [Point.add_of_Y_eq hx hy, neg_zero] at e
    exact Point.some_ne_zero h3 e.symm
  refine ⟨a1, a2, h1, h2, rfl, rfl, hxy, ?_⟩
  by_cases hx : a1 = a2
  · subst hx
    have hy : l * a1 + n ≠ (curve b).negY a1 (l * a1 + n) := fun hy => hxy ⟨rfl, hy⟩
    rw [slope_of_Y_ne rfl hy]
    rw [negY_curve] at hy ⊢
    have hd : (l * a1 + n) - -(l * a1 + n) ≠ 0 := sub_ne_zero.2 hy
    rw [eq_div_iff hd]
    simp only [curve, mul_zero, zero_mul, add_zero, sub_zero]
    linear_combination M.e2 - 2 * a1 * M.e1
  · rw [slope_of_X_ne hx]
    have hd : a1 - a2 ≠ 0 := sub_ne_zero.2 hx
    rw [eq_div_iff hd]
    ring

/-- There is only one such line. -/
theorem lineOf_unique {b : F} {A B : Pt b} {l n l' n' : F} (h : LineOf A B l n) (h' : LineOf A B l' n') : l = l' ∧ n = n' := by
  obtain ⟨a1, a2, h1, h2, rfl, rfl, -, e⟩ := lineOf_points h
  obtain ⟨b1, b2, k1, k2, e1, e2, -, e'⟩ := lineOf_points h'
  rw [Point.some.injEq] at e1 e2
  obtain ⟨rfl, e1⟩ := e1
  obtain ⟨rfl, e2⟩ := e2
  have hl : l = l' := by rw [e, e', e1, e2]
  subst hl
  exact ⟨rfl, add_left_cancel e1⟩

/-- The functions that vanish in the point. -/
noncomputable def idealOf {b : F} : Pt b → Ideal (curve b).CoordinateRing
  | .zero => ⊤
  | .some x y _ => XYIdeal (curve b) x (C y)

/-- The line as a function. -/
noncomputable def lineFn (b l n : F) : (curve b).CoordinateRing := YClass (curve b) (C l * X + C n)

theorem ideal_line {b : F} {A B : Pt b} {l n : F} (h : LineOf A B l n) :
    Ideal.span {lineFn b l n} = idealOf A * idealOf B * idealOf (-(A + B)) := by
  obtain ⟨a1, a2, h1, h2, rfl, rfl, hxy, e⟩ := lineOf_points h
  have key := XYIdeal_mul_XYIdeal h1.1 h2.1 hxy
  have hn := XYIdeal_neg_mul (nonsingular_add h1 h2 hxy)
  rw [← e] at key hn
  have hp : linePolynomial a1 (l * a1 + n) l = C l * X + C n := by
    unfold linePolynomial
    rw [C_add, C_mul]
    ring
  rw [hp] at key
  have hs : idealOf (-(Point.some _ _ h1 + Point.some _ _ h2) : Pt b) =
      XYIdeal (curve b) ((curve b).addX a1 a2 l) (C ((curve b).negY ((curve b).addX a1 a2 l) ((curve b).addY a1 a2 (l * a1 + n) l))) := by
    rw [Point.add_some hxy, Point.neg_some]
    show XYIdeal (curve b) _ (C _) = _
    rw [← e]
  rw [hs]
  have hx : Ideal.span {XClass (curve b) ((curve b).addX a1 a2 l)} * Ideal.span {lineFn b l n} =
      Ideal.span {XClass (curve b) ((curve b).addX a1 a2 l)} * (idealOf (.some _ _ h1 : Pt b) * idealOf (.some _ _ h2 : Pt b) *
        XYIdeal (curve b) ((curve b).addX a1 a2 l) (C ((curve b).negY ((curve b).addX a1 a2 l) ((curve b).addY a1 a2 (l * a1 + n) l)))) := by
    rw [← mul_assoc]
    show XIdeal _ _ * YIdeal _ _ = XIdeal _ _ * (XYIdeal _ _ _ * XYIdeal _ _ _) * _
    rw [key, mul_assoc, ← hn]
    rw [mul_comm (XYIdeal _ _ _) (XYIdeal _ _ _), mul_comm]
  exact (Ideal.span_singleton_mul_right_inj (XClass_ne_zero _)).1 hx

/-- The only units are the constants. -/
theorem unit_const {b : F} {u : (curve b).CoordinateRing} (h : IsUnit u) : ∃ c : F, c ≠ 0 ∧ u = mk (curve b) (C (C c)) := by
  obtain ⟨p, q, rfl⟩ := exists_smul_basis_eq u
  have hd := degree_norm_smul_basis (W' := curve b) p q
  have hu : IsUnit (Algebra.norm F[X] (p • (1 : (curve b).CoordinateRing) + q • mk (curve b) Y)) := h.map _
  rw [Polynomial.degree_eq_zero_of_isUnit hu] at hd
  have hq : q = 0 := by
    by_contra hq
    rw [degree_eq_natDegree hq] at hd
    have h3 : (2 • (q.natDegree : WithBot ℕ) + 3) ≤ 0 := hd ▸ le_max_right _ _
    rw [nsmul_eq_mul] at h3
    have h4 : 2 * q.natDegree + 3 ≤ 0 := by exact_mod_cast h3
    omega
  subst hq
  have hp0 : p ≠ 0 := by
    rintro rfl
    rw [zero_smul, zero_smul, add_zero] at h
    exact not_isUnit_zero h
  have hp : p.natDegree = 0 := by
    rw [degree_eq_natDegree hp0] at hd
    have h3 : 2 • (p.natDegree : WithBot ℕ) ≤ 0 := hd ▸ le_max_left _ _
    rw [nsmul_eq_mul] at h3
    have h4 : 2 * p.natDegree ≤ 0 := by exact_mod_cast h3
    omega
  rw [natDegree_eq_zero] at hp
  obtain ⟨c, rfl⟩ := hp
  refine ⟨c, fun h => hp0 (by rw [h, C_0]), ?_⟩
  rw [zero_smul, add_zero, CoordinateRing.smul, mul_one]

/-- The nine points. -/
theorem nine {b : F} {T1 T2 S1 S2 : Pt b} {l1 n1 l2 n2 l3 n3 lt nt ls ns lu nu : F} (h1 : LineOf T1 S1 l1 n1)
    (h2 : LineOf T2 S2 l2 n2) (h3 : LineOf (-(T1 + T2)) (-(S1 + S2)) l3 n3) (ht : LineOf T1 T2 lt nt) (hs : LineOf S1 S2 ls ns)
    (hu : LineOf (-(T1 + S1)) (-(T2 + S2)) lu nu) : ∃ c : F, c ≠ 0 ∧
      lineFn b l1 n1 * lineFn b l2 n2 * lineFn b l3 n3 =
        lineFn b lt nt * lineFn b ls ns * lineFn b lu nu * mk (curve b) (C (C c)) := by
  have e : Ideal.span {lineFn b lt nt * lineFn b ls ns * lineFn b lu nu} =
      Ideal.span {lineFn b l1 n1 * lineFn b l2 n2 * lineFn b l3 n3} := by
    simp only [← Ideal.span_singleton_mul_span_singleton]
    rw [ideal_line h1, ideal_line h2, ideal_line h3, ideal_line ht, ideal_line hs, ideal_line hu]
    have e3 : -(-(T1 + T2) + -(S1 + S2)) = -(-(T1 + S1) + -(T2 + S2)) := by abel
    rw [e3]
    ring
  rw [Ideal.span_singleton_eq_span_singleton] at e
  obtain ⟨u, hu⟩ := e
  obtain ⟨c, hc, e⟩ := unit_const u.isUnit
  exact ⟨c, hc, by rw [← hu, e]⟩

/-! ### Evaluation -/

variable {K : Type} [Field K]

/-- The value of a function in a point with coordinates in a larger field. -/
noncomputable def evalAt {b : F} (σ : F →+* K) (x y : K) (h : y ^ 2 = x ^ 3 + σ b) : (curve b).CoordinateRing →+* K :=
  AdjoinRoot.lift (eval₂RingHom σ x) y (by
    simp [WeierstrassCurve.Affine.polynomial, curve, -map_pow]
    try simp
    linear_combination h)

omit [DecidableEq F] in
theorem evalAt_line {b : F} (σ : F →+* K) (x y : K) (h : y ^ 2 = x ^ 3 + σ b) (l n : F) :
    evalAt σ x y h (lineFn b l n) = y - σ l * x - σ n := by
  unfold evalAt lineFn YClass
  rw [AdjoinRoot.lift_mk]
  simp
  ring

omit [DecidableEq F] in
theorem evalAt_const {b : F} (σ : F →+* K) (x y : K) (h : y ^ 2 = x ^ 3 + σ b) (c : F) :
    evalAt σ x y h (mk (curve b) (C (C c))) = σ c := by
  unfold evalAt
  rw [AdjoinRoot.lift_mk]
  simp

end Verif.Spec
