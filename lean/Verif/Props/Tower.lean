import Verif.Lemmas.TowerExp

/-! The extension fields of bn256 (C65–C69). -/

namespace Verif.Props

open Spec Tower

variable {K : Type} [Field K] (T : Above K)

/-! ### C65: the arithmetic is that of one field of q¹² elements and of its subfields -/

/-- `value12` respects sums, products and constants. -/
private def hom2 : Fq2 Fq →+* K where
  toFun := T.value2
  map_one' := by simp [Above.value2]
  map_zero' := by simp [Above.value2]
  map_add' a b := by simp [Above.value2]; ring
  map_mul' a b := by
    simp only [Above.value2, Fq2.mul_c0, Fq2.mul_c1, map_add, map_sub, map_mul]
    linear_combination (T.emb a.c1 * T.emb b.c1) * (-T.hu)

private theorem value2_xi : T.value2 Fq2.xi = 9 + T.u := by
  simp [Above.value2, Fq2.xi, show T.emb 9 = 9 from map_ofNat T.emb 9]

private theorem v2_add (a b : Fq2 Fq) : T.value2 (a + b) = T.value2 a + T.value2 b := map_add (hom2 T) a b
private theorem v2_mul (a b : Fq2 Fq) : T.value2 (a * b) = T.value2 a * T.value2 b := map_mul (hom2 T) a b
private theorem v2_zero : T.value2 0 = 0 := map_zero (hom2 T)
private theorem v2_one : T.value2 1 = 1 := map_one (hom2 T)

private def hom6 : Fq6 Fq →+* K where
  toFun := T.value6
  map_one' := by simp [Above.value6, v2_zero, v2_one]
  map_zero' := by simp [Above.value6, v2_zero]
  map_add' a b := by simp [Above.value6, v2_add]; ring
  map_mul' a b := by
    simp only [Above.value6, Fq6.mul_c0, Fq6.mul_c1, Fq6.mul_c2, v2_add, v2_mul, value2_xi, ← T.hv]
    ring

private theorem v6_add (a b : Fq6 Fq) : T.value6 (a + b) = T.value6 a + T.value6 b := map_add (hom6 T) a b
private theorem v6_mul (a b : Fq6 Fq) : T.value6 (a * b) = T.value6 a * T.value6 b := map_mul (hom6 T) a b
private theorem v6_zero : T.value6 0 = 0 := map_zero (hom6 T)
private theorem v6_one : T.value6 1 = 1 := map_one (hom6 T)
private theorem v6_v : T.value6 Fq6.v = T.v := by simp [Above.value6, Fq6.v, v2_zero, v2_one]

private def hom12 : Fq12 Fq →+* K where
  toFun := T.value12
  map_one' := by simp [Above.value12, v6_zero, v6_one]
  map_zero' := by simp [Above.value12, v6_zero]
  map_add' a b := by simp [Above.value12, v6_add]; ring
  map_mul' a b := by
    simp only [Above.value12, Fq12.mul_c0, Fq12.mul_c1, v6_add, v6_mul, v6_v, ← T.hw]
    ring

private theorem hom12_apply (a : Fq12 Fq) : hom12 T a = T.value12 a := rfl

/-- A field with q¹² elements that contains the base field and u, v, w exists, and every element of it is
the value of exactly one stored triple of pairs of pairs. -/
theorem C65_exists : ∃ (K : Type) (_ : Field K) (T : Above K), Function.Bijective T.value12 ∧ Nat.card K = Spec.Q ^ 12 := by
  let T : Above (Fq12 Fq) :=
    { emb := (Fq12.of.comp Fq6.of).comp Fq2.of
      u := Fq12.of (Fq6.of ⟨0, 1⟩)
      v := Fq12.of Fq6.v
      w := Fq12.w
      hu := by rw [← map_pow, ← map_pow, u_sq, map_neg, map_neg, map_one, map_one]
      hv := by
        rw [← map_pow, v_cube]
        have : (Fq2.xi : Fq2 Fq) = 9 + ⟨0, 1⟩ := by
          have h9 : (9 : Fq2 Fq) = Fq2.of 9 := (map_ofNat Fq2.of 9).symm
          rw [h9]
          ext <;> simp [Fq2.xi]
        rw [this, map_add, map_add, map_ofNat, map_ofNat]
      hw := w_sq }
  have h2 : ∀ a, T.value2 a = Fq12.of (Fq6.of a) := by
    intro a
    conv_rhs => rw [Fq2.split a, map_add, map_add, map_mul, map_mul]
    rfl
  have h6 : ∀ a, T.value6 a = Fq12.of a := by
    intro a
    conv_rhs => rw [Fq6.split a, map_add, map_add, map_mul, map_mul, map_pow]
    rw [Above.value6, h2, h2, h2]
  have h12 : ∀ a, T.value12 a = a := by
    intro a
    conv_rhs => rw [Fq12.split a]
    rw [Above.value12, h6, h6]
  refine ⟨Fq12 Fq, inferInstance, T, ?_, ?_⟩
  · rw [show T.value12 = id from funext h12]
    exact Function.bijective_id
  · rw [Nat.card_eq_fintype_card, Fq12.card]

/-- Different stored values never stand for the same element. -/
theorem C65_injective : Function.Injective T.value2 ∧ Function.Injective T.value6 ∧ Function.Injective T.value12 :=
  ⟨(hom2 T).injective, (hom6 T).injective, (hom12 T).injective⟩

/-- What the operations of `Fq2` compute. -/
theorem C65_fq2 (a b : Fq2 Fq) :
    T.value2 (a.add b) = T.value2 a + T.value2 b ∧ T.value2 (a.sub b) = T.value2 a - T.value2 b ∧
    T.value2 a.neg = -T.value2 a ∧ T.value2 (a.mul b) = T.value2 a * T.value2 b ∧
    T.value2 (a.mulAssign b) = T.value2 a * T.value2 b ∧ T.value2 a.square = T.value2 a ^ 2 ∧
    T.value2 a.double = 2 * T.value2 a ∧ T.value2 a.mulByNonresidue = (9 + T.u) * T.value2 a ∧
    T.value2 a * T.value2 a.conjugate = T.emb a.norm ∧
    T.value2 0 = 0 ∧ T.value2 1 = 1 ∧ (a.isZero = true ↔ T.value2 a = 0) ∧
    (a.invert = none ↔ T.value2 a = 0) ∧ (∀ c, a.invert = some c → T.value2 c = (T.value2 a)⁻¹) := by
  refine ⟨map_add (hom2 T) a b, map_sub (hom2 T) a b, map_neg (hom2 T) a, map_mul (hom2 T) a b, ?_, ?_, ?_, ?_, ?_,
    v2_zero T, v2_one T, ?_, ?_, ?_⟩
  · rw [Fq2.mulAssign_eq, v2_mul]
  · rw [Fq2.square_eq, v2_mul, pow_two]
  · rw [Fq2.double_eq, v2_add, two_mul]
  · rw [Fq2.mulByNonresidue_eq, v2_mul, value2_xi]
  · rw [← v2_mul, Fq2.mul_conjugate]
    simp [Above.value2]
  · rw [Fq2.isZero_iff]
    exact (map_eq_zero (hom2 T)).symm
  · rw [Fq2.invert_spec]
    exact Iff.trans (by by_cases h : a = 0 <;> simp [h]) (map_eq_zero (hom2 T)).symm
  · intro c hc
    rw [Fq2.invert_spec] at hc
    by_cases h : a = 0
    · simp [h] at hc
    · rw [if_neg h] at hc
      rw [← Option.some.inj hc]
      exact map_inv₀ (hom2 T) a

/-- What the operations of `Fq6` compute. -/
theorem C65_fq6 (a b : Fq6 Fq) (c d : Fq2 Fq) :
    T.value6 (a.add b) = T.value6 a + T.value6 b ∧ T.value6 (a.sub b) = T.value6 a - T.value6 b ∧
    T.value6 a.neg = -T.value6 a ∧ T.value6 (a.mul b) = T.value6 a * T.value6 b ∧
    T.value6 (a.mulAssign b) = T.value6 a * T.value6 b ∧ T.value6 a.square = T.value6 a ^ 2 ∧
    T.value6 a.double = 2 * T.value6 a ∧ T.value6 a.mulByNonresidue = T.v * T.value6 a ∧
    T.value6 (a.mulBy1 c) = T.value6 a * (T.value2 c * T.v) ∧
    T.value6 (a.mulBy01 c d) = T.value6 a * (T.value2 c + T.value2 d * T.v) ∧
    T.value6 0 = 0 ∧ T.value6 1 = 1 ∧
    (a.invert = none ↔ T.value6 a = 0) ∧ (∀ e, a.invert = some e → T.value6 e = (T.value6 a)⁻¹) := by
  refine ⟨map_add (hom6 T) a b, map_sub (hom6 T) a b, map_neg (hom6 T) a, map_mul (hom6 T) a b, ?_, ?_, ?_, ?_, ?_, ?_,
    v6_zero T, v6_one T, ?_, ?_⟩
  · rw [Fq6.mulAssign_eq, v6_mul]
  · rw [Fq6.square_eq, v6_mul, pow_two]
  · rw [Fq6.double_eq, v6_add, two_mul]
  · rw [Fq6.mulByNonresidue_eq, v6_mul, v6_v]
  · rw [Fq6.mulBy1_eq, v6_mul]
    simp [Above.value6, v2_zero]
  · rw [Fq6.mulBy01_eq, v6_mul]
    simp [Above.value6, v2_zero]
  · rw [Fq6.invert_spec]
    exact Iff.trans (by by_cases h : a = 0 <;> simp [h]) (map_eq_zero (hom6 T)).symm
  · intro c hc
    rw [Fq6.invert_spec] at hc
    by_cases h : a = 0
    · simp [h] at hc
    · rw [if_neg h] at hc
      rw [← Option.some.inj hc]
      exact map_inv₀ (hom6 T) a

/-- What the operations of `Fq12` compute. -/
theorem C65_fq12 (a b : Fq12 Fq) (c d e : Fq2 Fq) :
    T.value12 (a.add b) = T.value12 a + T.value12 b ∧ T.value12 (a.sub b) = T.value12 a - T.value12 b ∧
    T.value12 a.neg = -T.value12 a ∧ T.value12 (a.mul b) = T.value12 a * T.value12 b ∧
    T.value12 (a.mulAssign b) = T.value12 a * T.value12 b ∧ T.value12 a.square = T.value12 a ^ 2 ∧
    T.value12 a.double = 2 * T.value12 a ∧
    T.value12 (a.mulBy014 c d e) = T.value12 a * (T.value2 c + T.value2 d * T.v + T.value2 e * T.v * T.w) ∧
    T.value12 (a.mulBy034 c d e) = T.value12 a * (T.value2 c + T.value2 d * T.w + T.value2 e * T.v * T.w) ∧
    T.value12 0 = 0 ∧ T.value12 1 = 1 ∧
    (a.invert = none ↔ T.value12 a = 0) ∧ (∀ f, a.invert = some f → T.value12 f = (T.value12 a)⁻¹) := by
  refine ⟨map_add (hom12 T) a b, map_sub (hom12 T) a b, map_neg (hom12 T) a, map_mul (hom12 T) a b, ?_, ?_, ?_, ?_, ?_,
    map_zero (hom12 T), map_one (hom12 T), ?_, ?_⟩
  · rw [Fq12.mulAssign_eq]
    exact map_mul (hom12 T) a b
  · rw [Fq12.square_eq, pow_two]
    exact map_mul (hom12 T) a a
  · rw [Fq12.double_eq, two_mul]
    exact map_add (hom12 T) a a
  · rw [Fq12.mulBy014_eq, ← hom12_apply T, map_mul]
    simp [hom12_apply, Above.value12, Above.value6, v2_zero]
  · rw [Fq12.mulBy034_eq, ← hom12_apply T, map_mul]
    simp [hom12_apply, Above.value12, Above.value6, v2_zero]
    left
    ring
  · rw [Fq12.invert_spec]
    exact Iff.trans (by by_cases h : a = 0 <;> simp [h]) (map_eq_zero (hom12 T)).symm
  · intro c hc
    rw [Fq12.invert_spec] at hc
    by_cases h : a = 0
    · simp [h] at hc
    · rw [if_neg h] at hc
      rw [← Option.some.inj hc]
      exact map_inv₀ (hom12 T) a

/-- Not vacuous: a product of two elements in which every coordinate takes part. -/
example : (⟨⟨⟨1, 2⟩, ⟨3, 4⟩, ⟨5, 6⟩⟩, ⟨⟨7, 8⟩, ⟨9, 10⟩, ⟨11, 12⟩⟩⟩ : Fq12 Fq).mul
    ⟨⟨⟨2, 1⟩, ⟨0, 1⟩, ⟨1, 1⟩⟩, ⟨⟨3, 0⟩, ⟨1, 2⟩, ⟨0, 5⟩⟩⟩ ≠ 0 := by decide +kernel

example : (⟨⟨1, 2⟩, ⟨3, 4⟩, ⟨5, 6⟩⟩ : Fq6 Fq).invert ≠ none := by decide +kernel

/-! ### C66: the Frobenius maps raise to powers of q -/

/-- `frobenius_map(i)` raises to the power `q^i`, for every `i`. -/
theorem C66_frobenius (i : Nat) :
    (∀ a, T.value2 (a.frobeniusMap decoded i) = T.value2 a ^ Spec.Q ^ i) ∧
    (∀ a, T.value6 (a.frobeniusMap decoded i) = T.value6 a ^ Spec.Q ^ i) ∧
    (∀ a, T.value12 (a.frobeniusMap decoded i) = T.value12 a ^ Spec.Q ^ i) := by
  refine ⟨fun a => ?_, fun a => ?_, fun a => ?_⟩
  · rw [frob2_pow]
    exact map_pow (hom2 T) a _
  · rw [frob6_pow]
    exact map_pow (hom6 T) a _
  · rw [frob12_pow]
    exact map_pow (hom12 T) a _

/-- `conjugate` raises to the power `q` in `Fq2` and to the power `q⁶` in `Fq12`. -/
theorem C66_conjugate (a : Fq2 Fq) (b : Fq12 Fq) :
    T.value2 a.conjugate = T.value2 a ^ Spec.Q ∧ T.value12 b.conjugate = T.value12 b ^ Spec.Q ^ 6 := by
  rw [← pow_q2, ← frob_six]
  exact ⟨map_pow (hom2 T) a _, map_pow (hom12 T) b _⟩

/-- Not vacuous: an element that a Frobenius map moves. -/
example : Fq12.frobeniusMap decoded (⟨⟨⟨1, 2⟩, ⟨3, 4⟩, ⟨5, 6⟩⟩, ⟨⟨7, 8⟩, ⟨9, 10⟩, ⟨11, 12⟩⟩⟩ : Fq12 Fq) 7 ≠
    ⟨⟨⟨1, 2⟩, ⟨3, 4⟩, ⟨5, 6⟩⟩, ⟨⟨7, 8⟩, ⟨9, 10⟩, ⟨11, 12⟩⟩⟩ := by decide +kernel

/-! ### C67: the fast squaring -/

/-- `cyclotomic_square` is the square of an element exactly when the element is zero or its order divides
`q⁴ - q² + 1`. -/
theorem C67_cyclotomic (a : Fq12 Fq) :
    T.value12 a.cyclotomicSquare = T.value12 a ^ 2 ↔ a = 0 ∨ T.value12 a ^ (Spec.Q ^ 4 - Spec.Q ^ 2 + 1) = 1 := by
  have e : T.value12 a.cyclotomicSquare = T.value12 a ^ 2 ↔ a.cyclotomicSquare = a * a := by
    rw [pow_two, show T.value12 a * T.value12 a = T.value12 (a * a) from (map_mul (hom12 T) a a).symm]
    exact (C65_injective T).2.2.eq_iff
  have e2 : T.value12 a ^ (Spec.Q ^ 4 - Spec.Q ^ 2 + 1) = 1 ↔ Cyc a := by
    unfold Cyc
    rw [show T.value12 a ^ (Spec.Q ^ 4 - Spec.Q ^ 2 + 1) = T.value12 (a ^ (Spec.Q ^ 4 - Spec.Q ^ 2 + 1)) from
      (map_pow (hom12 T) a _).symm, ← (C65_injective T).2.2.eq_iff,
      show T.value12 (1 : Fq12 Fq) = 1 from map_one (hom12 T)]
  rw [e, e2, cyclotomic_iff]
  by_cases h : a = 0
  · subst h
    simp only [true_or, iff_true]
    rw [mul_zero, zero_pow]
    decide +kernel
  · rw [cyc_iff h]
    simp [h]

/-- So it must not be used on other elements: there it gives something else. -/
theorem C67_other : ∃ a : Fq12 Fq, a.cyclotomicSquare ≠ a.square :=
  ⟨⟨⟨⟨2, 0⟩, 0, 0⟩, 0⟩, by decide +kernel⟩

/-! ### C68: the final exponentiation -/

/-- `final_exponentiation` raises to the power `(q¹² - 1) / r`; it panics for zero and for nothing else. -/
theorem C68_final (a : Fq12 Fq) :
    (a = 0 → a.finalExponentiation decoded = .error .unwrap) ∧
    (a ≠ 0 → ∃ c, a.finalExponentiation decoded = .ok c ∧ T.value12 c = T.value12 a ^ ((Spec.Q ^ 12 - 1) / P)) := by
  rw [finalExponentiation_eq]
  refine ⟨fun h => by rw [if_pos h], fun h => ⟨_, by rw [if_neg h], ?_⟩⟩
  exact map_pow (hom12 T) a _

/-- What it returns has an order that divides the order of the group of points. -/
theorem C68_order (a c : Fq12 Fq) (h : a.finalExponentiation decoded = .ok c) : T.value12 c ^ P = 1 := by
  rw [finalExponentiation_eq] at h
  by_cases h0 : a = 0
  · rw [if_pos h0] at h
    cases h
  · rw [if_neg h0] at h
    have e := Except.ok.inj h
    have : c ^ P = 1 := by
      rw [← e, ← pow_mul, show (Spec.Q ^ 12 - 1) / P * P = Spec.Q ^ 12 - 1 by decide +kernel, ← Fq12.card]
      exact FiniteField.pow_card_sub_one_eq_one a h0
    rw [← hom12_apply T, ← map_pow, this, map_one]

/-- It is multiplicative. -/
theorem C68_mul (a b c d : Fq12 Fq) (ha : a.finalExponentiation decoded = .ok c)
    (hb : b.finalExponentiation decoded = .ok d) : (a.mul b).finalExponentiation decoded = .ok (c.mul d) := by
  show Fq12.finalExponentiation decoded (a * b) = .ok (c * d)
  rw [finalExponentiation_eq] at ha hb ⊢
  by_cases h0 : a = 0
  · rw [if_pos h0] at ha
    cases ha
  · by_cases h1 : b = 0
    · rw [if_pos h1] at hb
      cases hb
    · rw [if_neg h0] at ha
      rw [if_neg h1] at hb
      rw [if_neg (mul_ne_zero h0 h1), ← Except.ok.inj ha, ← Except.ok.inj hb, mul_pow]

/-- Not vacuous: the result can be different from 1. -/
example : ∃ c, Fq12.finalExponentiation decoded (⟨⟨⟨1, 2⟩, ⟨3, 4⟩, ⟨5, 6⟩⟩, ⟨⟨7, 8⟩, ⟨9, 10⟩, ⟨11, 12⟩⟩⟩ : Fq12 Fq) = .ok c ∧
    c ≠ 1 ∧ c ≠ 0 := by
  refine ⟨_, rfl, ?_, ?_⟩ <;> decide +kernel

/-! ### C69: `is_zero` overlooks a coordinate -/

/-- `is_zero` of `Fq6` and `Fq12` answers yes for elements other than zero. -/
theorem C69_refuted : (∃ a : Fq6 Fq, a.isZero = true ∧ a ≠ 0) ∧ ∃ a : Fq12 Fq, a.isZero = true ∧ a ≠ 0 :=
  ⟨⟨⟨0, 0, 1⟩, by decide +kernel, by decide +kernel⟩, ⟨⟨⟨0, 0, 1⟩, ⟨0, 0, ⟨3, 5⟩⟩⟩, by decide +kernel, by decide +kernel⟩⟩

/-- It is right about the coordinates it looks at: it never answers no for zero, and the answer yes leaves only
the third coordinates open. Missing: those coordinates. -/
theorem C69_partial (a : Fq6 Fq) (b : Fq12 Fq) :
    (a.isZero = true ↔ a = ⟨0, 0, a.c2⟩) ∧ (b.isZero = true ↔ b = ⟨⟨0, 0, b.c0.c2⟩, ⟨0, 0, b.c1.c2⟩⟩) := by
  have h : ∀ a : Fq6 Fq, a.isZero = true ↔ a = ⟨0, 0, a.c2⟩ := by
    intro a
    unfold Fq6.isZero
    rw [Bool.and_eq_true, Fq2.isZero_iff, Fq2.isZero_iff]
    exact ⟨fun h => Fq6.ext h.1 h.2 rfl, fun h => ⟨congrArg Fq6.c0 h, congrArg Fq6.c1 h⟩⟩
  refine ⟨h a, ?_⟩
  unfold Fq12.isZero
  rw [Bool.and_eq_true, h, h]
  exact ⟨fun h => Fq12.ext h.1 h.2, fun h => ⟨congrArg Fq12.c0 h, congrArg Fq12.c1 h⟩⟩

#print axioms C65_exists
#print axioms C65_fq12
#print axioms C66_frobenius
#print axioms C67_cyclotomic
#print axioms C68_final
#print axioms C68_mul
#print axioms C69_refuted

end Verif.Props
