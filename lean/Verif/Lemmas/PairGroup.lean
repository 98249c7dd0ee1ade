import Verif.Lemmas.CurveOrder
import Verif.Lemmas.PairStep
import Verif.Lemmas.TowerExp

/-! The second group of bn256: its order, and the Frobenius map on it. -/

namespace Verif.Spec

open WeierstrassCurve.Affine

section

variable {F K : Type} [Field F] [DecidableEq F] [Field K] [DecidableEq K]

set_option linter.unusedSectionVars false

theorem semi_on (σ : F →+* K) (c : K) {b : F} {b' : K} (s' : Smooth b') (hb : σ b * c ^ 6 = b') {x y : F}
    (h : (curve b).Nonsingular x y) : (curve b').Nonsingular (σ x * c ^ 2) (σ y * c ^ 3) := by
  rw [nonsingular_curve s']
  have e := congrArg σ (point_eq h)
  rw [map_add, map_pow, map_pow] at e
  linear_combination c ^ 6 * e + hb

/-- The map `(x, y) ↦ (σ(x) c², σ(y) c³)` between curves. -/
def semi (σ : F →+* K) (c : K) {b : F} {b' : K} (s' : Smooth b') (hb : σ b * c ^ 6 = b') : Pt b → Pt b'
  | .zero => 0
  | .some x y h => .some (σ x * c ^ 2) (σ y * c ^ 3) (semi_on σ c s' hb h)

theorem some_congr {b x y x' y' : K} {h : (curve b).Nonsingular x y} {h' : (curve b).Nonsingular x' y'} (hx : x = x') (hy : y = y') :
    (Point.some x y h : Pt b) = .some x' y' h' := by
  subst hx hy
  rfl

theorem add_self_zero {b x : K} {h : (curve b).Nonsingular x 0} : (Point.some x 0 h + Point.some x 0 h : Pt b) = 0 := by
  refine Point.add_self_of_Y_eq ?_
  rw [negY_curve, neg_zero]

theorem semi_add (σ : F →+* K) {c : K} (hc : c ≠ 0) {b : F} {b' : K} (s : Smooth b) (s' : Smooth b') (hb : σ b * c ^ 6 = b')
    (A B : Pt b) : semi σ c s' hb (A + B) = semi σ c s' hb A + semi σ c s' hb B := by
  have hσ := σ.injective
  match A, B with
  | .zero, B => exact ((congrArg (semi σ c s' hb) (zero_add B)).trans (zero_add _).symm)
  | .some x y h, .zero => exact ((congrArg (semi σ c s' hb) (add_zero _)).trans (add_zero _).symm)
  | .some x1 y1 h1, .some x2 y2 h2 =>
    by_cases hx : x1 = x2
    · subst hx
      by_cases hy : y1 = y2
      · subst hy
        by_cases h0 : y1 = 0
        · subst h0
          rw [add_self_zero]
          have e : semi σ c s' hb (Point.some x1 0 h1) = .some (σ x1 * c ^ 2) 0 ((nonsingular_curve s').2 (by
              have e := congrArg σ (point_eq h1)
              rw [map_add, map_pow, map_pow, map_zero] at e
              linear_combination c ^ 6 * e + hb)) := some_congr rfl (by rw [map_zero, zero_mul])
          rw [e, add_self_zero]
          rfl
        · obtain ⟨hn, e⟩ := double_point s (h1 := h1) h0
          rw [e]
          have h0' : σ y1 * c ^ 3 ≠ 0 := mul_ne_zero ((map_ne_zero σ).2 h0) (pow_ne_zero _ hc)
          obtain ⟨hn', e'⟩ := double_point s' (h1 := semi_on σ c s' hb h1) h0'
          have hs := (map_ne_zero σ).2 h0
          have h2 := s'.two
          refine Eq.trans ?_ e'.symm
          refine some_congr ?_ ?_
          · simp only [map_sub, map_pow, map_div₀, map_mul, map_ofNat]
            field_simp
          · simp only [map_neg, map_add, map_sub, map_pow, map_div₀, map_mul, map_ofNat]
            field_simp
            try ring
      · rw [opposite hy]
        refine (opposite ?_).symm
        intro e
        exact hy (hσ (mul_right_cancel₀ (pow_ne_zero _ hc) e))
    · obtain ⟨hn, e⟩ := add_points (h1 := h1) (h2 := h2) hx
      rw [e]
      have hx' : σ x1 * c ^ 2 ≠ σ x2 * c ^ 2 := fun e => hx (hσ (mul_right_cancel₀ (pow_ne_zero _ hc) e))
      obtain ⟨hn', e'⟩ := add_points (h1 := semi_on σ c s' hb h1) (h2 := semi_on σ c s' hb h2) hx'
      have hd : σ x1 - σ x2 ≠ 0 := sub_ne_zero.2 fun e => hx (hσ e)
      have hd' : σ x1 * c ^ 2 - σ x2 * c ^ 2 ≠ 0 := sub_ne_zero.2 hx'
      have hl : (σ y1 * c ^ 3 - σ y2 * c ^ 3) / (σ x1 * c ^ 2 - σ x2 * c ^ 2) = (σ y1 - σ y2) / (σ x1 - σ x2) * c := by
        field_simp
      refine Eq.trans ?_ e'.symm
      refine some_congr ?_ ?_
      · rw [hl]
        simp only [map_sub, map_pow, map_div₀]
        ring
      · rw [hl]
        simp only [map_neg, map_add, map_sub, map_pow, map_div₀, map_mul]
        ring

/-- The map as a homomorphism. -/
def semiHom (σ : F →+* K) {c : K} (hc : c ≠ 0) {b : F} {b' : K} (s : Smooth b) (s' : Smooth b') (hb : σ b * c ^ 6 = b') :
    Pt b →+ Pt b' where
  toFun := semi σ c s' hb
  map_zero' := rfl
  map_add' := semi_add σ hc s s' hb

end

end Verif.Spec

namespace Verif.Tower

open Verif.Spec WeierstrassCurve.Affine

theorem nsmul_zero_of {b : Fq2 Fq} (s : Smooth b) {p : Jac (Fq2 Fq)} {A : Pt b} (h : JacIs p A) (n : Nat) (hn : n < 256 ^ 32)
    (hz : (p.mul (leBytes 32 n)).z = 0) : n • A = 0 := by
  obtain ⟨l, hl⟩ : ∃ l, l = leBytes 32 n := ⟨_, rfl⟩
  rw [← hl] at hz
  have h2 := mul_is s h l
  have hl' : leNat l = n := hl ▸ leNat_leBytes 32 n hn
  rw [hl'] at h2
  exact jac_unique h2 (jac_zero.2 hz)

theorem eq_nsmul_of {b : Fq2 Fq} (s : Smooth b) {p q : Jac (Fq2 Fq)} {A B : Pt b} (h : JacIs p A) (h' : JacIs q B) (n : Nat)
    (hn : n < 256 ^ 32) (hz : q.ctEq (p.mul (leBytes 32 n)) = true) : B = n • A := by
  obtain ⟨l, hl⟩ : ∃ l, l = leBytes 32 n := ⟨_, rfl⟩
  rw [← hl] at hz
  have h2 := mul_is s h l
  have hl' : leNat l = n := hl ▸ leNat_leBytes 32 n hn
  rw [hl'] at h2
  have h4 := ctEq_is h' h2
  rw [hz] at h4
  exact of_decide_eq_true h4.symm

theorem jac_one {b x y : Fq2 Fq} {h : (curve b).Nonsingular x y} : JacIs (⟨x, y, 1⟩ : Jac (Fq2 Fq)) (.some x y h : Pt b) :=
  jac_some.2 ⟨one_ne_zero, by rw [one_pow, mul_one], by rw [one_pow, mul_one]⟩

/-- The constant of the second curve. -/
abbrev B2 : Fq2 Fq := g2B

theorem smooth2 : Smooth B2 := ⟨by decide +kernel, by decide +kernel, by decide +kernel⟩

theorem b2_xi : B2 * Fq2.xi = 3 := by decide +kernel

/-- The generator as a point. -/
noncomputable def gen2 : Pt B2 := .some (g2Generator : Aff (Fq2 Fq)).x (g2Generator : Aff (Fq2 Fq)).y
  ((nonsingular_curve smooth2).2 (by decide +kernel))

/-- Its coordinates. -/
def jac2 : Jac (Fq2 Fq) := ⟨(g2Generator : Aff (Fq2 Fq)).x, (g2Generator : Aff (Fq2 Fq)).y, 1⟩

theorem gen2_is : JacIs jac2 gen2 := jac_one

theorem gen2_ne : gen2 ≠ 0 := Point.some_ne_zero _

theorem order_gen2 : P • gen2 = 0 :=
  nsmul_zero_of smooth2 gen2_is P (by decide +kernel) (by decide +kernel)

/-- Conjugation as a homomorphism. -/
def conjHom : Fq2 Fq →+* Fq2 Fq where
  toFun := Fq2.conjugate
  map_one' := by decide +kernel
  map_zero' := by decide +kernel
  map_add' a b := by ext <;> simp [Fq2.conjugate]; ring
  map_mul' := conj_mul

theorem gamma_ne : gamma ≠ 0 := by decide +kernel

theorem conj_b2 : conjHom B2 * gamma ^ 6 = B2 := by
  show B2.conjugate * gamma ^ 6 = B2
  decide +kernel

/-- The Frobenius map of the second curve. -/
noncomputable def frob : Pt B2 →+ Pt B2 := semiHom conjHom gamma_ne smooth2 smooth2 conj_b2

theorem frob_some {x y : Fq2 Fq} (h : (curve B2).Nonsingular x y) : ∃ h', frob (.some x y h) =
    .some (x.conjugate * gamma ^ 2) (y.conjugate * gamma ^ 3) h' := ⟨_, rfl⟩

/-- The coordinates of its image. -/
noncomputable def jac2Frob : Jac (Fq2 Fq) :=
  ⟨(g2Generator : Aff (Fq2 Fq)).x.conjugate * gamma ^ 2, (g2Generator : Aff (Fq2 Fq)).y.conjugate * gamma ^ 3, 1⟩

theorem frob_gen2 : frob gen2 = Q • gen2 := by
  have h : ∀ n m : Nat, n = m + P → n • gen2 = m • gen2 := by
    rintro n m rfl
    rw [add_nsmul, order_gen2, add_zero]
  rw [h Q (Q - P) (by decide +kernel)]
  have h3 : JacIs jac2Frob (frob gen2) := jac_one
  exact eq_nsmul_of smooth2 gen2_is h3 (Q - P) (by decide +kernel) (by decide +kernel)

/-- The second group: the multiples of the generator. -/
def InG2 (B : Pt B2) : Prop := ∃ k : Nat, B = k • gen2

theorem InG2.order {B : Pt B2} (h : InG2 B) : P • B = 0 := by
  obtain ⟨k, rfl⟩ := h
  rw [← mul_nsmul, Nat.mul_comm, mul_nsmul, order_gen2, nsmul_zero]

theorem InG2.frob {B : Pt B2} (h : InG2 B) : Tower.frob B = Q • B := by
  obtain ⟨k, rfl⟩ := h
  rw [map_nsmul, frob_gen2, ← mul_nsmul, ← mul_nsmul, Nat.mul_comm]

theorem InG2.add {A B : Pt B2} (hA : InG2 A) (hB : InG2 B) : InG2 (A + B) := by
  obtain ⟨k, rfl⟩ := hA
  obtain ⟨l, rfl⟩ := hB
  exact ⟨k + l, (add_nsmul _ _ _).symm⟩

theorem InG2.neg {B : Pt B2} (h : InG2 B) : InG2 (-B) := by
  obtain ⟨k, rfl⟩ := h
  refine ⟨k * (P - 1), ?_⟩
  have e : k • gen2 + (k * (P - 1)) • gen2 = 0 := by
    rw [← add_nsmul, show k + k * (P - 1) = P * k from ?_, mul_nsmul, order_gen2, nsmul_zero]
    have h : ∀ p : Nat, 0 < p → k + k * (p - 1) = p * k := by
      intro p hp
      obtain ⟨m, rfl⟩ : ∃ m, p = m + 1 := ⟨p - 1, by omega⟩
      rw [Nat.add_sub_cancel]
      ring
    exact h P (by decide +kernel)
  exact neg_eq_of_add_eq_zero_right e

theorem InG2.smul_zero {B : Pt B2} (h : InG2 B) (h0 : B ≠ 0) {a : Int} : a • B = 0 ↔ (P : Int) ∣ a := by
  have ho : addOrderOf B = P := addOrderOf_eq_prime h.order h0
  rw [← addOrderOf_dvd_iff_zsmul_eq_zero, ho]

theorem InG2.congr {B : Pt B2} (h : InG2 B) {a b : Int} (e : (P : Int) ∣ a - b) : a • B = b • B := by
  obtain ⟨c, hc⟩ := e
  rw [show a = b + P * c by rw [← hc]; ring, add_zsmul, mul_comm, mul_zsmul, natCast_zsmul, h.order, zsmul_zero, add_zero]

theorem frobTwist_is {q : Aff (Fq2 Fq)} {B : Pt B2} (h : AffIs q B) : AffIs (frobTwist decoded q) (Tower.frob B) := by
  have e3 : xiToQMinus1Over2.map decoded = gamma ^ 3 := by decide +kernel
  have e2 : (consts decoded frobFq6C1).getD 1 0 = gamma ^ 2 := by decide +kernel
  match B, h with
  | .zero, h =>
    have h' : q = ⟨0, 0⟩ := h
    subst h'
    show frobTwist decoded ⟨0, 0⟩ = ⟨0, 0⟩
    decide +kernel
  | .some x y hn, h =>
    have h' : q = ⟨x, y⟩ := h
    subst h'
    show frobTwist decoded ⟨x, y⟩ = ⟨x.conjugate * gamma ^ 2, y.conjugate * gamma ^ 3⟩
    unfold frobTwist
    rw [e3, e2]
    simp only [Fq2.mulAssign_eq]
    rfl

theorem minusFrobTwist2_is {q : Aff (Fq2 Fq)} {B : Pt B2} (h : AffIs q B) :
    AffIs (minusFrobTwist2 decoded q) (-Tower.frob (Tower.frob B)) := by
  have e1 : (consts decoded frobFq6C1).getD 2 0 = (gamma.conjugate * gamma) ^ 2 := by decide +kernel
  have e2 : (gamma.conjugate * gamma) ^ 3 = -1 := by decide +kernel
  match B, h with
  | .zero, h =>
    have h' : q = ⟨0, 0⟩ := h
    subst h'
    show minusFrobTwist2 decoded ⟨0, 0⟩ = ⟨0, 0⟩
    decide +kernel
  | .some x y hn, h =>
    have h' : q = ⟨x, y⟩ := h
    subst h'
    show minusFrobTwist2 decoded ⟨x, y⟩ = ⟨(x.conjugate * gamma ^ 2).conjugate * gamma ^ 2,
      (curve B2).negY ((x.conjugate * gamma ^ 2).conjugate * gamma ^ 2) ((y.conjugate * gamma ^ 3).conjugate * gamma ^ 3)⟩
    unfold minusFrobTwist2
    rw [e1, negY_curve, conj_mul, conj_mul, conj_conj, conj_conj, conj_pow, conj_pow, Fq2.mulAssign_eq, mul_assoc, mul_assoc,
      ← mul_pow, ← mul_pow, e2]
    simp

end Verif.Tower
