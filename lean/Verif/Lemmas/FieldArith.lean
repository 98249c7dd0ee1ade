import Mathlib.Tactic.LinearCombination
import Mathlib.Tactic.Ring
import Mathlib.Tactic.Zify
import Verif.Lemmas.BytesLemmas
import Verif.Model.FieldArith

/-! Helper lemmas for the limb arithmetic: what each function computes, as natural numbers. -/

namespace Verif

/-- The number eight limbs stand for. -/
def Limbs8.val (a : Limbs8) : Nat :=
  a.l0 + W64 * (a.l1 + W64 * (a.l2 + W64 * (a.l3 + W64 * (a.l4 + W64 * (a.l5 + W64 * (a.l6 + W64 * a.l7))))))

/-- The limbs fit their machine words. -/
def Limbs8.Ok (a : Limbs8) : Prop :=
  a.l0 < W64 ∧ a.l1 < W64 ∧ a.l2 < W64 ∧ a.l3 < W64 ∧ a.l4 < W64 ∧ a.l5 < W64 ∧ a.l6 < W64 ∧ a.l7 < W64

theorem adc_eq (a b e : Nat) : (adc a b e).1 + W64 * (adc a b e).2 = a + b + e := by
  simp only [adc]
  exact Nat.mod_add_div _ _

theorem adc_lt (a b e : Nat) : (adc a b e).1 < W64 := Nat.mod_lt _ (by norm_num [W64])

theorem adc_carry {a b e : Nat} (ha : a < W64) (hb : b < W64) (he : e ≤ 1) : (adc a b e).2 ≤ 1 := by
  simp only [adc, W64] at *
  omega

theorem mac_eq (a b c e : Nat) : (mac a b c e).1 + W64 * (mac a b c e).2 = a + b * c + e := by
  simp only [mac]
  exact Nat.mod_add_div _ _

theorem mac_lt (a b c e : Nat) : (mac a b c e).1 < W64 := Nat.mod_lt _ (by norm_num [W64])

theorem mac_carry {a b c e : Nat} (ha : a < W64) (hb : b < W64) (hc : c < W64) (he : e < W64) : (mac a b c e).2 < W64 := by
  have h : b * c ≤ (W64 - 1) * (W64 - 1) := Nat.mul_le_mul (by omega) (by omega)
  simp only [mac, W64] at *
  omega

theorem and_mask {x e : Nat} (hx : x < W64) (he : e ≤ 1) : x &&& e * (W64 - 1) = e * x := by
  have : e = 0 ∨ e = 1 := by omega
  rcases this with rfl | rfl
  · simp
  · rw [Nat.one_mul, Nat.one_mul, show W64 - 1 = 2 ^ 64 - 1 from rfl, Nat.and_two_pow_sub_one_eq_mod]
    exact Nat.mod_eq_of_lt hx

theorem Limbs.val_lt {a : Limbs} (h : a.Ok) : a.val < W64 ^ 4 := by
  obtain ⟨h0, h1, h2, h3⟩ := h
  simp only [Limbs.val, W64] at *
  omega

theorem Limbs.ext_val {a b : Limbs} (ha : a.Ok) (hb : b.Ok) (h : a.val = b.val) : a = b := by
  obtain ⟨a0, a1, a2, a3⟩ := a
  obtain ⟨b0, b1, b2, b3⟩ := b
  obtain ⟨h0, h1, h2, h3⟩ := ha
  obtain ⟨k0, k1, k2, k3⟩ := hb
  simp only [Limbs.val, W64, Limbs.mk.injEq] at *
  omega

/-- Four subtractions with borrow. -/
theorem sub_limbs {a b : Limbs} (ha : a.Ok) (hb : b.Ok) :
    ∃ f ≤ 1, (sbb a.l3 b.l3 (sbb a.l2 b.l2 (sbb a.l1 b.l1 (sbb a.l0 b.l0 0).2).2).2).2 = f * (W64 - 1) ∧
      Limbs.Ok ⟨(sbb a.l0 b.l0 0).1, (sbb a.l1 b.l1 (sbb a.l0 b.l0 0).2).1,
        (sbb a.l2 b.l2 (sbb a.l1 b.l1 (sbb a.l0 b.l0 0).2).2).1,
        (sbb a.l3 b.l3 (sbb a.l2 b.l2 (sbb a.l1 b.l1 (sbb a.l0 b.l0 0).2).2).2).1⟩ ∧
      Limbs.val ⟨(sbb a.l0 b.l0 0).1, (sbb a.l1 b.l1 (sbb a.l0 b.l0 0).2).1,
        (sbb a.l2 b.l2 (sbb a.l1 b.l1 (sbb a.l0 b.l0 0).2).2).1,
        (sbb a.l3 b.l3 (sbb a.l2 b.l2 (sbb a.l1 b.l1 (sbb a.l0 b.l0 0).2).2).2).1⟩ + b.val = a.val + f * W64 ^ 4 := by
  obtain ⟨x0, x1, x2, x3⟩ := a
  obtain ⟨y0, y1, y2, y3⟩ := b
  obtain ⟨hx0, hx1, hx2, hx3⟩ := ha
  obtain ⟨hy0, hy1, hy2, hy3⟩ := hb
  simp only at hx0 hx1 hx2 hx3 hy0 hy1 hy2 hy3
  obtain ⟨f0, b0, e0, q0, l0⟩ := sbb_bit x0 y0 0 hx0 hy0 (by omega)
  obtain ⟨f1, b1, e1, q1, l1⟩ := sbb_bit x1 y1 f0 hx1 hy1 b0
  obtain ⟨f2, b2, e2, q2, l2⟩ := sbb_bit x2 y2 f1 hx2 hy2 b1
  obtain ⟨f3, b3, e3, q3, l3⟩ := sbb_bit x3 y3 f2 hx3 hy3 b2
  rw [Nat.zero_mul] at e0 q0 l0
  refine ⟨f3, b3, ?_⟩
  simp only [Limbs.val, Limbs.Ok, e0, e1, e2, e3]
  generalize (sbb x3 y3 _).1 = d3 at q3 l3
  generalize (sbb x2 y2 _).1 = d2 at q2 l2
  generalize (sbb x1 y1 _).1 = d1 at q1 l1
  generalize (sbb x0 y0 _).1 = d0 at q0 l0
  clear e0 e1 e2 e3
  refine ⟨trivial, ⟨l0, l1, l2, l3⟩, ?_⟩
  simp only [W64] at *
  omega

/-- Four additions with carry. -/
theorem add_limbs {a b : Limbs} (ha : a.Ok) (hb : b.Ok) :
    ∃ f ≤ 1, (adc a.l3 b.l3 (adc a.l2 b.l2 (adc a.l1 b.l1 (adc a.l0 b.l0 0).2).2).2).2 = f ∧
      Limbs.Ok ⟨(adc a.l0 b.l0 0).1, (adc a.l1 b.l1 (adc a.l0 b.l0 0).2).1,
        (adc a.l2 b.l2 (adc a.l1 b.l1 (adc a.l0 b.l0 0).2).2).1,
        (adc a.l3 b.l3 (adc a.l2 b.l2 (adc a.l1 b.l1 (adc a.l0 b.l0 0).2).2).2).1⟩ ∧
      Limbs.val ⟨(adc a.l0 b.l0 0).1, (adc a.l1 b.l1 (adc a.l0 b.l0 0).2).1,
        (adc a.l2 b.l2 (adc a.l1 b.l1 (adc a.l0 b.l0 0).2).2).1,
        (adc a.l3 b.l3 (adc a.l2 b.l2 (adc a.l1 b.l1 (adc a.l0 b.l0 0).2).2).2).1⟩ + f * W64 ^ 4 = a.val + b.val := by
  obtain ⟨x0, x1, x2, x3⟩ := a
  obtain ⟨y0, y1, y2, y3⟩ := b
  obtain ⟨hx0, hx1, hx2, hx3⟩ := ha
  obtain ⟨hy0, hy1, hy2, hy3⟩ := hb
  simp only at hx0 hx1 hx2 hx3 hy0 hy1 hy2 hy3
  have c0 := adc_carry hx0 hy0 (Nat.zero_le 1)
  have q0 := adc_eq x0 y0 0
  have l0 := adc_lt x0 y0 0
  generalize adc x0 y0 0 = d0 at *
  have c1 := adc_carry hx1 hy1 c0
  have q1 := adc_eq x1 y1 d0.2
  have l1 := adc_lt x1 y1 d0.2
  generalize adc x1 y1 d0.2 = d1 at *
  have c2 := adc_carry hx2 hy2 c1
  have q2 := adc_eq x2 y2 d1.2
  have l2 := adc_lt x2 y2 d1.2
  generalize adc x2 y2 d1.2 = d2 at *
  have c3 := adc_carry hx3 hy3 c2
  have q3 := adc_eq x3 y3 d2.2
  have l3 := adc_lt x3 y3 d2.2
  generalize adc x3 y3 d2.2 = d3 at *
  refine ⟨_, c3, rfl, ⟨l0, l1, l2, l3⟩, ?_⟩
  simp only [Limbs.val, W64] at *
  omega

namespace FieldConsts

variable {c : FieldConsts}

/-- The value of `sub`, for any limbs. -/
theorem sub_val (hm : c.modulus.Ok) {a b : Limbs} (ha : a.Ok) (hb : b.Ok) :
    (c.sub a b).Ok ∧ (b.val ≤ a.val → (c.sub a b).val = a.val - b.val) ∧
      (a.val < b.val → b.val ≤ a.val + c.modulus.val → (c.sub a b).val = a.val + c.modulus.val - b.val) := by
  obtain ⟨f, hf, e, ok, hv⟩ := sub_limbs ha hb
  have hmok : Limbs.Ok ⟨f * c.modulus.l0, f * c.modulus.l1, f * c.modulus.l2, f * c.modulus.l3⟩ := by
    have : f = 0 ∨ f = 1 := by omega
    rcases this with rfl | rfl
    · simp [Limbs.Ok]
    · simpa [Limbs.Ok] using hm
  obtain ⟨g, hg, -, ok', hv'⟩ := add_limbs ok hmok
  unfold sub
  dsimp only at ok' hv' ⊢
  rw [e, and_mask hm.1 hf, and_mask hm.2.1 hf, and_mask hm.2.2.1 hf, and_mask hm.2.2.2 hf]
  refine ⟨ok', ?_⟩
  have h1 := Limbs.val_lt ok
  have h2 := Limbs.val_lt ok'
  have h3 := Limbs.val_lt ha
  have h4 := Limbs.val_lt hb
  have h5 := Limbs.val_lt hm
  generalize Limbs.val ⟨(sbb a.l0 b.l0 0).1, _, _, _⟩ = X at *
  rw [show Limbs.val ⟨f * c.modulus.l0, f * c.modulus.l1, f * c.modulus.l2, f * c.modulus.l3⟩ = f * c.modulus.val by
    simp only [Limbs.val]; ring] at hv'
  have : f = 0 ∨ f = 1 := by omega
  have : g = 0 ∨ g = 1 := by omega
  generalize W64 ^ 4 = R at *
  constructor
  · intro h
    rcases ‹f = 0 ∨ f = 1› with rfl | rfl <;> rcases ‹g = 0 ∨ g = 1› with rfl | rfl <;> omega
  · intro h h'
    rcases ‹f = 0 ∨ f = 1› with rfl | rfl <;> rcases ‹g = 0 ∨ g = 1› with rfl | rfl <;> omega

/-- Subtracting the modulus once, for a number below twice the modulus. -/
theorem sub_modulus (hm : c.modulus.Ok) {a : Limbs} (ha : a.Ok) (h : a.val < 2 * c.modulus.val) :
    (c.sub a c.modulus).Ok ∧ (c.sub a c.modulus).val < c.modulus.val ∧
      (c.sub a c.modulus).val % c.modulus.val = a.val % c.modulus.val := by
  obtain ⟨h1, h2, h3⟩ := sub_val hm ha hm
  refine ⟨h1, ?_⟩
  by_cases hle : c.modulus.val ≤ a.val
  · rw [h2 hle]
    refine ⟨by omega, ?_⟩
    conv_rhs => rw [show a.val = a.val - c.modulus.val + c.modulus.val by omega]
    rw [Nat.add_mod_right]
  · rw [h3 (by omega) (by omega)]
    refine ⟨by omega, ?_⟩
    congr 1
    omega

theorem add_val (hm : c.modulus.Ok) (hs : 2 * c.modulus.val ≤ W64 ^ 4) {a b : Limbs} (ha : a.Ok) (hb : b.Ok)
    (ha' : a.val < c.modulus.val) (hb' : b.val < c.modulus.val) :
    (c.add a b).Ok ∧ (c.add a b).val < c.modulus.val ∧
      (c.add a b).val % c.modulus.val = (a.val + b.val) % c.modulus.val := by
  obtain ⟨f, hf, -, ok, hv⟩ := add_limbs ha hb
  have h1 := Limbs.val_lt ok
  have hf0 : f = 0 := by
    have : f = 0 ∨ f = 1 := by omega
    rcases this with rfl | rfl
    · rfl
    · generalize W64 ^ 4 = R at *
      omega
  subst hf0
  rw [Nat.zero_mul, Nat.add_zero] at hv
  have := sub_modulus hm ok (by omega)
  rw [hv] at this
  exact this

theorem neg_val (hm : c.modulus.Ok) {a : Limbs} (ha : a.Ok) (ha' : a.val < c.modulus.val) :
    (c.neg a).Ok ∧ (c.neg a).val < c.modulus.val ∧ ((c.neg a).val + a.val) % c.modulus.val = 0 := by
  obtain ⟨f, hf, e, ok, hv⟩ := sub_limbs hm ha
  unfold neg
  dsimp only
  have h1 := Limbs.val_lt ok
  have h3 := Limbs.val_lt ha
  have h5 := Limbs.val_lt hm
  have hf0 : f = 0 := by
    have : f = 0 ∨ f = 1 := by omega
    rcases this with rfl | rfl
    · rfl
    · generalize W64 ^ 4 = R at *
      omega
  subst hf0
  rw [Nat.zero_mul, Nat.add_zero] at hv
  by_cases hz : a.l0 ||| a.l1 ||| a.l2 ||| a.l3 = 0
  · rw [if_pos hz]
    have : (1 + W64 - 1) % W64 = 0 := by norm_num [W64]
    rw [this]
    simp only [Nat.and_zero]
    have hz : a = ⟨0, 0, 0, 0⟩ := by
      obtain ⟨a0, a1, a2, a3⟩ := a
      simp only [Nat.or_eq_zero_iff] at hz
      simp [hz]
    refine ⟨by simp [Limbs.Ok], ?_, by simp [hz, Limbs.val]⟩
    have : Limbs.val ⟨0, 0, 0, 0⟩ = 0 := rfl
    rw [hz] at ha'
    omega
  · rw [if_neg hz]
    have : (0 + W64 - 1) % W64 = 1 * (W64 - 1) := by norm_num [W64]
    rw [this, and_mask ok.1 le_rfl, and_mask ok.2.1 le_rfl, and_mask ok.2.2.1 le_rfl, and_mask ok.2.2.2 le_rfl]
    simp only [Nat.one_mul]
    refine ⟨ok, ?_, by rw [hv, Nat.mod_self]⟩
    have : a.val ≠ 0 := by
      intro h0
      refine hz ?_
      simp only [Limbs.val, W64] at h0
      have e0 : a.l0 = 0 := by omega
      have e1 : a.l1 = 0 := by omega
      have e2 : a.l2 = 0 := by omega
      have e3 : a.l3 = 0 := by omega
      rw [e0, e1, e2, e3]
      rfl
    omega

/-- One step of the reduction makes the lowest limb zero. -/
theorem low_zero {m0 inv r : Nat} (hinv : m0 * inv % W64 = W64 - 1) : (mac r (r * inv % W64) m0 0).1 = 0 := by
  simp only [mac, Nat.add_zero]
  rw [Nat.add_mod, Nat.mul_mod, Nat.mod_mod, ← Nat.mul_mod, ← Nat.add_mod]
  have : (r + r * inv * m0) % W64 = (r * (1 + m0 * inv)) % W64 := by congr 1; ring
  rw [this, Nat.mul_mod]
  have : (1 + m0 * inv) % W64 = 0 := by
    rw [Nat.add_mod, hinv]
    norm_num [W64]
  rw [this, Nat.mul_zero, Nat.zero_mod]

/-- The value of `montgomery_reduce`, for numbers below `2^256` times the modulus: the number divided by
`2^256`. -/
theorem montgomeryReduce_val (hm : c.modulus.Ok) (hinv : c.modulus.l0 * c.inv % W64 = W64 - 1)
    (hs : 2 * c.modulus.val ≤ W64 ^ 4) {t : Limbs8} (ht : t.Ok) (hlt : t.val < W64 ^ 4 * c.modulus.val) :
    (c.montgomeryReduce t).Ok ∧ (c.montgomeryReduce t).val < c.modulus.val ∧
      (c.montgomeryReduce t).val * W64 ^ 4 % c.modulus.val = t.val % c.modulus.val := by
  obtain ⟨t0, t1, t2, t3, t4, t5, t6, t7⟩ := t
  obtain ⟨⟨m0, m1, m2, m3⟩, inv, r, r2, r3⟩ := c
  obtain ⟨w0, w1, w2, w3, w4, w5, w6, w7⟩ := ht
  obtain ⟨n0, n1, n2, n3⟩ := hm
  dsimp only at *
  have hz : 0 < W64 := by norm_num [W64]
  have hW : ∀ x, x % W64 < W64 := fun x => Nat.mod_lt _ (by norm_num [W64])
  unfold montgomeryReduce
  dsimp only
  have z1 := low_zero (r := t0) hinv
  have k1 := hW (t0 * inv)
  generalize t0 * inv % W64 = k at *
  have q0 := mac_eq t0 k m0 0
  have g0 := mac_carry w0 k1 n0 hz
  generalize mac t0 k m0 0 = a0 at *
  have q1 := mac_eq t1 k m1 a0.2
  have g1 := mac_carry w1 k1 n1 g0
  have l1 := mac_lt t1 k m1 a0.2
  generalize mac t1 k m1 a0.2 = a1 at *
  have q2 := mac_eq t2 k m2 a1.2
  have g2 := mac_carry w2 k1 n2 g1
  have l2 := mac_lt t2 k m2 a1.2
  generalize mac t2 k m2 a1.2 = a2 at *
  have q3 := mac_eq t3 k m3 a2.2
  have g3 := mac_carry w3 k1 n3 g2
  have l3 := mac_lt t3 k m3 a2.2
  generalize mac t3 k m3 a2.2 = a3 at *
  have q4 := adc_eq t4 0 a3.2
  have l4 := adc_lt t4 0 a3.2
  have g4 : (adc t4 0 a3.2).2 ≤ 1 := by simp only [adc, W64] at *; omega
  generalize adc t4 0 a3.2 = a4 at *
  -- second round
  have z2 := low_zero (r := a1.1) hinv
  have k2 := hW (a1.1 * inv)
  generalize a1.1 * inv % W64 = k' at *
  have p1 := mac_eq a1.1 k' m0 0
  have h1 := mac_carry l1 k2 n0 hz
  generalize mac a1.1 k' m0 0 = b1 at *
  have p2 := mac_eq a2.1 k' m1 b1.2
  have h2 := mac_carry l2 k2 n1 h1
  have i2 := mac_lt a2.1 k' m1 b1.2
  generalize mac a2.1 k' m1 b1.2 = b2 at *
  have p3 := mac_eq a3.1 k' m2 b2.2
  have h3 := mac_carry l3 k2 n2 h2
  have i3 := mac_lt a3.1 k' m2 b2.2
  generalize mac a3.1 k' m2 b2.2 = b3 at *
  have p4 := mac_eq a4.1 k' m3 b3.2
  have h4 := mac_carry l4 k2 n3 h3
  have i4 := mac_lt a4.1 k' m3 b3.2
  generalize mac a4.1 k' m3 b3.2 = b4 at *
  have p5 := adc_eq t5 a4.2 b4.2
  have i5 := adc_lt t5 a4.2 b4.2
  have h5 : (adc t5 a4.2 b4.2).2 ≤ 1 := by simp only [adc, W64] at *; omega
  generalize adc t5 a4.2 b4.2 = b5 at *
  -- third round
  have z3 := low_zero (r := b2.1) hinv
  have k3 := hW (b2.1 * inv)
  generalize b2.1 * inv % W64 = k'' at *
  have s2 := mac_eq b2.1 k'' m0 0
  have j2 := mac_carry i2 k3 n0 hz
  generalize mac b2.1 k'' m0 0 = c2 at *
  have s3 := mac_eq b3.1 k'' m1 c2.2
  have j3 := mac_carry i3 k3 n1 j2
  have o3 := mac_lt b3.1 k'' m1 c2.2
  generalize mac b3.1 k'' m1 c2.2 = c3 at *
  have s4 := mac_eq b4.1 k'' m2 c3.2
  have j4 := mac_carry i4 k3 n2 j3
  have o4 := mac_lt b4.1 k'' m2 c3.2
  generalize mac b4.1 k'' m2 c3.2 = c4 at *
  have s5 := mac_eq b5.1 k'' m3 c4.2
  have j5 := mac_carry i5 k3 n3 j4
  have o5 := mac_lt b5.1 k'' m3 c4.2
  generalize mac b5.1 k'' m3 c4.2 = c5 at *
  have s6 := adc_eq t6 b5.2 c5.2
  have o6 := adc_lt t6 b5.2 c5.2
  have j6 : (adc t6 b5.2 c5.2).2 ≤ 1 := by simp only [adc, W64] at *; omega
  generalize adc t6 b5.2 c5.2 = c6 at *
  -- fourth round
  have z4 := low_zero (r := c3.1) hinv
  have k4 := hW (c3.1 * inv)
  generalize c3.1 * inv % W64 = k''' at *
  have u3 := mac_eq c3.1 k''' m0 0
  have v3 := mac_carry o3 k4 n0 hz
  generalize mac c3.1 k''' m0 0 = d3 at *
  have u4 := mac_eq c4.1 k''' m1 d3.2
  have v4 := mac_carry o4 k4 n1 v3
  have x4 := mac_lt c4.1 k''' m1 d3.2
  generalize mac c4.1 k''' m1 d3.2 = d4 at *
  have u5 := mac_eq c5.1 k''' m2 d4.2
  have v5 := mac_carry o5 k4 n2 v4
  have x5 := mac_lt c5.1 k''' m2 d4.2
  generalize mac c5.1 k''' m2 d4.2 = d5 at *
  have u6 := mac_eq c6.1 k''' m3 d5.2
  have v6 := mac_carry o6 k4 n3 v5
  have x6 := mac_lt c6.1 k''' m3 d5.2
  generalize mac c6.1 k''' m3 d5.2 = d6 at *
  have u7 := adc_eq t7 c6.2 d6.2
  have x7 := adc_lt t7 c6.2 d6.2
  have v7 : (adc t7 c6.2 d6.2).2 ≤ 1 := by simp only [adc, W64] at *; omega
  generalize adc t7 c6.2 d6.2 = d7 at *
  have total : W64 ^ 4 * (Limbs.val ⟨d4.1, d5.1, d6.1, d7.1⟩ + W64 ^ 4 * d7.2) =
      Limbs8.val ⟨t0, t1, t2, t3, t4, t5, t6, t7⟩ +
        (k + W64 * (k' + W64 * (k'' + W64 * k'''))) * Limbs.val ⟨m0, m1, m2, m3⟩ := by
    simp only [Limbs.val, Limbs8.val]
    generalize W64 = W at *
    zify at *
    linear_combination q0 + W * q1 + W ^ 2 * q2 + W ^ 3 * q3 + W ^ 4 * q4 - z1 +
      W * p1 + W ^ 2 * p2 + W ^ 3 * p3 + W ^ 4 * p4 + W ^ 5 * p5 - W * z2 +
      W ^ 2 * s2 + W ^ 3 * s3 + W ^ 4 * s4 + W ^ 5 * s5 + W ^ 6 * s6 - W ^ 2 * z3 +
      W ^ 3 * u3 + W ^ 4 * u4 + W ^ 5 * u5 + W ^ 6 * u6 + W ^ 7 * u7 - W ^ 3 * z4
  have hK : k + W64 * (k' + W64 * (k'' + W64 * k''')) < W64 ^ 4 := by
    simp only [W64] at *
    omega
  generalize k + W64 * (k' + W64 * (k'' + W64 * k''')) = K at *
  have ok : Limbs.Ok ⟨d4.1, d5.1, d6.1, d7.1⟩ := ⟨x4, x5, x6, x7⟩
  have hb : Limbs.val ⟨d4.1, d5.1, d6.1, d7.1⟩ + W64 ^ 4 * d7.2 < 2 * Limbs.val ⟨m0, m1, m2, m3⟩ := by
    have : K * Limbs.val ⟨m0, m1, m2, m3⟩ ≤ W64 ^ 4 * Limbs.val ⟨m0, m1, m2, m3⟩ := Nat.mul_le_mul_right _ hK.le
    refine Nat.lt_of_mul_lt_mul_left (a := W64 ^ 4) ?_
    rw [total]
    calc _ < W64 ^ 4 * Limbs.val ⟨m0, m1, m2, m3⟩ + W64 ^ 4 * Limbs.val ⟨m0, m1, m2, m3⟩ := Nat.add_lt_add_of_lt_of_le hlt this
      _ = _ := by ring
  have hd : d7.2 = 0 := by
    rcases Nat.eq_zero_or_pos d7.2 with h | h
    · exact h
    · have : W64 ^ 4 * 1 ≤ W64 ^ 4 * d7.2 := Nat.mul_le_mul_left _ h
      omega
  rw [hd, Nat.mul_zero, Nat.add_zero] at hb total
  obtain ⟨r1, r2', r3'⟩ := sub_modulus (c := ⟨⟨m0, m1, m2, m3⟩, inv, r, r2, r3⟩) ⟨n0, n1, n2, n3⟩ ok hb
  refine ⟨r1, r2', ?_⟩
  dsimp only at r3' ⊢
  rw [Nat.mul_mod, r3', ← Nat.mul_mod, Nat.mul_comm, total, Nat.add_mul_mod_self_right]

/-- The value of the product. -/
theorem mulWide_val {x y : Limbs} (hx : x.Ok) (hy : y.Ok) :
    (mulWide x y).Ok ∧ (mulWide x y).val = x.val * y.val := by
  obtain ⟨x0, x1, x2, x3⟩ := x
  obtain ⟨y0, y1, y2, y3⟩ := y
  obtain ⟨hx0, hx1, hx2, hx3⟩ := hx
  obtain ⟨hy0, hy1, hy2, hy3⟩ := hy
  dsimp only at hx0 hx1 hx2 hx3 hy0 hy1 hy2 hy3
  have hz : 0 < W64 := by norm_num [W64]
  unfold mulWide
  dsimp only
  have q0 := mac_eq 0 x0 y0 0
  have g0 := mac_carry hz hx0 hy0 hz
  have l0 := mac_lt 0 x0 y0 0
  generalize mac 0 x0 y0 0 = a0 at *
  have q1 := mac_eq 0 x0 y1 a0.2
  have g1 := mac_carry hz hx0 hy1 g0
  have l1 := mac_lt 0 x0 y1 a0.2
  generalize mac 0 x0 y1 a0.2 = a1 at *
  have q2 := mac_eq 0 x0 y2 a1.2
  have g2 := mac_carry hz hx0 hy2 g1
  have l2 := mac_lt 0 x0 y2 a1.2
  generalize mac 0 x0 y2 a1.2 = a2 at *
  have q3 := mac_eq 0 x0 y3 a2.2
  have g3 := mac_carry hz hx0 hy3 g2
  have l3 := mac_lt 0 x0 y3 a2.2
  generalize mac 0 x0 y3 a2.2 = a3 at *
  have p1 := mac_eq a1.1 x1 y0 0
  have h1 := mac_carry l1 hx1 hy0 hz
  have i1 := mac_lt a1.1 x1 y0 0
  generalize mac a1.1 x1 y0 0 = b1 at *
  have p2 := mac_eq a2.1 x1 y1 b1.2
  have h2 := mac_carry l2 hx1 hy1 h1
  have i2 := mac_lt a2.1 x1 y1 b1.2
  generalize mac a2.1 x1 y1 b1.2 = b2 at *
  have p3 := mac_eq a3.1 x1 y2 b2.2
  have h3 := mac_carry l3 hx1 hy2 h2
  have i3 := mac_lt a3.1 x1 y2 b2.2
  generalize mac a3.1 x1 y2 b2.2 = b3 at *
  have p4 := mac_eq a3.2 x1 y3 b3.2
  have h4 := mac_carry g3 hx1 hy3 h3
  have i4 := mac_lt a3.2 x1 y3 b3.2
  generalize mac a3.2 x1 y3 b3.2 = b4 at *
  have s2 := mac_eq b2.1 x2 y0 0
  have j2 := mac_carry i2 hx2 hy0 hz
  have o2 := mac_lt b2.1 x2 y0 0
  generalize mac b2.1 x2 y0 0 = c2 at *
  have s3 := mac_eq b3.1 x2 y1 c2.2
  have j3 := mac_carry i3 hx2 hy1 j2
  have o3 := mac_lt b3.1 x2 y1 c2.2
  generalize mac b3.1 x2 y1 c2.2 = c3 at *
  have s4 := mac_eq b4.1 x2 y2 c3.2
  have j4 := mac_carry i4 hx2 hy2 j3
  have o4 := mac_lt b4.1 x2 y2 c3.2
  generalize mac b4.1 x2 y2 c3.2 = c4 at *
  have s5 := mac_eq b4.2 x2 y3 c4.2
  have j5 := mac_carry h4 hx2 hy3 j4
  have o5 := mac_lt b4.2 x2 y3 c4.2
  generalize mac b4.2 x2 y3 c4.2 = c5 at *
  have u3 := mac_eq c3.1 x3 y0 0
  have v3 := mac_carry o3 hx3 hy0 hz
  have w3 := mac_lt c3.1 x3 y0 0
  generalize mac c3.1 x3 y0 0 = d3 at *
  have u4 := mac_eq c4.1 x3 y1 d3.2
  have v4 := mac_carry o4 hx3 hy1 v3
  have w4 := mac_lt c4.1 x3 y1 d3.2
  generalize mac c4.1 x3 y1 d3.2 = d4 at *
  have u5 := mac_eq c5.1 x3 y2 d4.2
  have v5 := mac_carry o5 hx3 hy2 v4
  have w5 := mac_lt c5.1 x3 y2 d4.2
  generalize mac c5.1 x3 y2 d4.2 = d5 at *
  have u6 := mac_eq c5.2 x3 y3 d5.2
  have v6 := mac_carry j5 hx3 hy3 v5
  have w6 := mac_lt c5.2 x3 y3 d5.2
  generalize mac c5.2 x3 y3 d5.2 = d6 at *
  refine ⟨⟨l0, i1, o2, w3, w4, w5, w6, v6⟩, ?_⟩
  simp only [Limbs.val, Limbs8.val]
  generalize W64 = W at *
  zify at *
  linear_combination q0 + W * q1 + W ^ 2 * q2 + W ^ 3 * q3 + W * p1 + W ^ 2 * p2 + W ^ 3 * p3 + W ^ 4 * p4 +
    W ^ 2 * s2 + W ^ 3 * s3 + W ^ 4 * s4 + W ^ 5 * s5 + W ^ 3 * u3 + W ^ 4 * u4 + W ^ 5 * u5 + W ^ 6 * u6

theorem shl1_or {a b : Nat} (hb : b < W64) : shl1 a ||| b / 2 ^ 63 = shl1 a + b / 2 ^ 63 := by
  have h : b / 2 ^ 63 < 2 := by simp only [W64] at hb; omega
  have e : shl1 a = 2 * (a % 2 ^ 63) := by
    simp only [shl1, W64]
    omega
  rw [e, ← Nat.two_pow_add_eq_or_of_lt (i := 1) (by simpa using h) (a % 2 ^ 63)]

theorem shl1_eq {a : Nat} (ha : a < W64) : shl1 a + W64 * (a / 2 ^ 63) = 2 * a := by
  simp only [shl1, W64] at *
  omega

/-- The value of the square. -/
theorem squareWide_val {x : Limbs} (hx : x.Ok) : (squareWide x).Ok ∧ (squareWide x).val = x.val * x.val := by
  obtain ⟨x0, x1, x2, x3⟩ := x
  obtain ⟨hx0, hx1, hx2, hx3⟩ := hx
  dsimp only at hx0 hx1 hx2 hx3
  have hz : 0 < W64 := by norm_num [W64]
  unfold squareWide
  dsimp only
  have q1 := mac_eq 0 x0 x1 0
  have g1 := mac_carry hz hx0 hx1 hz
  have l1 := mac_lt 0 x0 x1 0
  generalize mac 0 x0 x1 0 = a1 at *
  have q2 := mac_eq 0 x0 x2 a1.2
  have g2 := mac_carry hz hx0 hx2 g1
  have l2 := mac_lt 0 x0 x2 a1.2
  generalize mac 0 x0 x2 a1.2 = a2 at *
  have q3 := mac_eq 0 x0 x3 a2.2
  have g3 := mac_carry hz hx0 hx3 g2
  have l3 := mac_lt 0 x0 x3 a2.2
  generalize mac 0 x0 x3 a2.2 = a3 at *
  have p3 := mac_eq a3.1 x1 x2 0
  have h3 := mac_carry l3 hx1 hx2 hz
  have i3 := mac_lt a3.1 x1 x2 0
  generalize mac a3.1 x1 x2 0 = b3 at *
  have p4 := mac_eq a3.2 x1 x3 b3.2
  have h4 := mac_carry g3 hx1 hx3 h3
  have i4 := mac_lt a3.2 x1 x3 b3.2
  generalize mac a3.2 x1 x3 b3.2 = b4 at *
  have p5 := mac_eq b4.2 x2 x3 0
  have h5 := mac_carry h4 hx2 hx3 hz
  have i5 := mac_lt b4.2 x2 x3 0
  generalize mac b4.2 x2 x3 0 = c5 at *
  rw [shl1_or i5, shl1_or i4, shl1_or i3, shl1_or l2, shl1_or l1]
  have e1 := shl1_eq l1
  have e2 := shl1_eq l2
  have e3 := shl1_eq i3
  have e4 := shl1_eq i4
  have e5 := shl1_eq i5
  have e6 := shl1_eq h5
  have bound : ∀ {x y : Nat}, y < W64 → shl1 x + y / 2 ^ 63 < W64 := by
    intro x y hy
    simp only [shl1, W64] at *
    omega
  have f6 := bound (x := c5.2) i5
  have f5 := bound (x := c5.1) i4
  have f4 := bound (x := b4.1) i3
  have f3 := bound (x := b3.1) l2
  have f2 := bound (x := a2.1) l1
  have f1 : shl1 a1.1 < W64 := Nat.mod_lt _ hz
  have f7 : c5.2 / 2 ^ 63 < W64 := lt_of_le_of_lt (Nat.div_le_self _ _) h5
  clear bound
  generalize shl1 a1.1 = r1 at *
  generalize shl1 a2.1 = y2 at *
  generalize shl1 b3.1 = y3 at *
  generalize shl1 b4.1 = y4 at *
  generalize shl1 c5.1 = y5 at *
  generalize shl1 c5.2 = y6 at *
  generalize a1.1 / 2 ^ 63 = z2 at *
  generalize a2.1 / 2 ^ 63 = z3 at *
  generalize b3.1 / 2 ^ 63 = z4 at *
  generalize b4.1 / 2 ^ 63 = z5 at *
  generalize c5.1 / 2 ^ 63 = z6 at *
  generalize c5.2 / 2 ^ 63 = r7 at *
  have u0 := mac_eq 0 x0 x0 0
  have v0 := mac_carry hz hx0 hx0 hz
  have w0 := mac_lt 0 x0 x0 0
  generalize mac 0 x0 x0 0 = d0 at *
  have u1 := adc_eq 0 r1 d0.2
  have w1 := adc_lt 0 r1 d0.2
  have v1 : (adc 0 r1 d0.2).2 < W64 := by simp only [adc, W64] at *; omega
  generalize adc 0 r1 d0.2 = d1 at *
  have u2 := mac_eq (y2 + z2) x1 x1 d1.2
  have v2 := mac_carry f2 hx1 hx1 v1
  have w2 := mac_lt (y2 + z2) x1 x1 d1.2
  generalize mac (y2 + z2) x1 x1 d1.2 = d2 at *
  have u3 := adc_eq 0 (y3 + z3) d2.2
  have w3 := adc_lt 0 (y3 + z3) d2.2
  have v3 : (adc 0 (y3 + z3) d2.2).2 < W64 := by simp only [adc, W64] at *; omega
  generalize adc 0 (y3 + z3) d2.2 = d3 at *
  have u4 := mac_eq (y4 + z4) x2 x2 d3.2
  have v4 := mac_carry f4 hx2 hx2 v3
  have w4 := mac_lt (y4 + z4) x2 x2 d3.2
  generalize mac (y4 + z4) x2 x2 d3.2 = d4 at *
  have u5 := adc_eq 0 (y5 + z5) d4.2
  have w5 := adc_lt 0 (y5 + z5) d4.2
  have v5 : (adc 0 (y5 + z5) d4.2).2 < W64 := by simp only [adc, W64] at *; omega
  generalize adc 0 (y5 + z5) d4.2 = d5 at *
  have u6 := mac_eq (y6 + z6) x3 x3 d5.2
  have v6 := mac_carry f6 hx3 hx3 v5
  have w6 := mac_lt (y6 + z6) x3 x3 d5.2
  generalize mac (y6 + z6) x3 x3 d5.2 = d6 at *
  have u7 := adc_eq 0 r7 d6.2
  have w7 := adc_lt 0 r7 d6.2
  generalize adc 0 r7 d6.2 = d7 at *
  refine ⟨⟨w0, w1, w2, w3, w4, w5, w6, w7⟩, ?_⟩
  have total : Limbs8.val ⟨d0.1, d1.1, d2.1, d3.1, d4.1, d5.1, d6.1, d7.1⟩ + W64 ^ 8 * d7.2 =
      Limbs.val ⟨x0, x1, x2, x3⟩ * Limbs.val ⟨x0, x1, x2, x3⟩ := by
    simp only [Limbs.val, Limbs8.val]
    clear f1 f2 f3 f4 f5 f6 f7 v0 v1 v2 v3 v4 v5 v6
    generalize W64 = W at *
    zify at *
    linear_combination u0 + W * u1 + W ^ 2 * u2 + W ^ 3 * u3 + W ^ 4 * u4 + W ^ 5 * u5 + W ^ 6 * u6 + W ^ 7 * u7 +
      W * e1 + W ^ 2 * e2 + W ^ 3 * e3 + W ^ 4 * e4 + W ^ 5 * e5 + W ^ 6 * e6 +
      2 * W * q1 + 2 * W ^ 2 * q2 + 2 * W ^ 3 * q3 + 2 * W ^ 3 * p3 + 2 * W ^ 4 * p4 + 2 * W ^ 5 * p5
  have hlt := Limbs.val_lt (a := ⟨x0, x1, x2, x3⟩) ⟨hx0, hx1, hx2, hx3⟩
  have : Limbs.val ⟨x0, x1, x2, x3⟩ * Limbs.val ⟨x0, x1, x2, x3⟩ < W64 ^ 8 := by
    calc _ < W64 ^ 4 * W64 ^ 4 := Nat.mul_lt_mul'' hlt hlt
      _ = _ := by ring
  have hd : d7.2 = 0 := by
    rcases Nat.eq_zero_or_pos d7.2 with h | h
    · exact h
    · have : W64 ^ 8 * 1 ≤ W64 ^ 8 * d7.2 := Nat.mul_le_mul_left _ h
      omega
  rw [hd, Nat.mul_zero, Nat.add_zero] at total
  exact total

end FieldConsts

end Verif
