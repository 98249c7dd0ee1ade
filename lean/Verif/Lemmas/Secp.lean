import Verif.Lemmas.FieldValue
import Verif.Lemmas.PrattSecp

/-! Helper lemmas: the limb arithmetic of the fields whose primes take all 256 bits. -/

namespace Verif

open Spec

namespace FieldConsts.Dense

variable {c : FieldConsts}

theorem finish_nat {f e g q t X Y d m R W : Nat} (hf : f ≤ 1) (he : e ≤ 1) (hg : g ≤ 1) (hq : q ≤ 1) (ht : t < W)
    (hgv : t + 0 + f = e + g * W) (hv : X + m = d + f * R) (hv' : Y + q * R = X + g * m) (h1 : X < R) (h2 : Y < R)
    (h5 : m < R) (h : d + R * e < 2 * m) : Y + (1 - g) * m = d + R * e ∧ Y < m := by
  have hf : f = 0 ∨ f = 1 := by omega
  have he : e = 0 ∨ e = 1 := by omega
  have hg : g = 0 ∨ g = 1 := by omega
  have hq : q = 0 ∨ q = 1 := by omega
  rcases hf with rfl | rfl <;> rcases he with rfl | rfl <;> rcases hg with rfl | rfl <;> rcases hq with rfl | rfl <;>
    simp only [Nat.zero_mul, Nat.one_mul, Nat.mul_zero, Nat.mul_one, Nat.add_zero, Nat.sub_zero, Nat.sub_self] at * <;> omega

/-- The last step, for a number below twice the modulus. -/
theorem finish_val (hm : c.modulus.Ok) {d : Limbs} (hd : d.Ok) {e : Nat} (he : e ≤ 1)
    (h : d.val + W64 ^ 4 * e < 2 * c.modulus.val) :
    (finish c d e).Ok ∧ (finish c d e).val < c.modulus.val ∧
      (finish c d e).val % c.modulus.val = (d.val + W64 ^ 4 * e) % c.modulus.val := by
  obtain ⟨f, hf, ef, ok, hv⟩ := sub_limbs hd hm
  obtain ⟨g, hg, eg, hgv, hlast⟩ := sbb_bit e 0 f (by simp only [W64]; omega) (by norm_num [W64]) hf
  have hmok : Limbs.Ok ⟨g * c.modulus.l0, g * c.modulus.l1, g * c.modulus.l2, g * c.modulus.l3⟩ := by
    have : g = 0 ∨ g = 1 := by omega
    rcases this with rfl | rfl
    · simp [Limbs.Ok]
    · simpa [Limbs.Ok] using hm
  obtain ⟨q, hq, -, ok', hv'⟩ := add_limbs ok hmok
  unfold finish
  dsimp only at ok' hv' ⊢
  rw [ef, eg, and_mask hm.1 hg, and_mask hm.2.1 hg, and_mask hm.2.2.1 hg, and_mask hm.2.2.2 hg]
  refine ⟨ok', ?_⟩
  have h1 := Limbs.val_lt ok
  have h2 := Limbs.val_lt ok'
  have h3 := Limbs.val_lt hd
  have h5 := Limbs.val_lt hm
  rw [show Limbs.val ⟨g * c.modulus.l0, g * c.modulus.l1, g * c.modulus.l2, g * c.modulus.l3⟩ = g * c.modulus.val by
    simp only [Limbs.val]; ring] at hv'
  obtain ⟨hj, hlt⟩ := finish_nat hf he hg hq hlast hgv hv hv' h1 h2 h5 h
  refine ⟨hlt, ?_⟩
  rw [← hj, Nat.add_mul_mod_self_right]

theorem add_val (hm : c.modulus.Ok) {a b : Limbs} (ha : a.Ok) (hb : b.Ok)
    (ha' : a.val < c.modulus.val) (hb' : b.val < c.modulus.val) :
    (add c a b).Ok ∧ (add c a b).val < c.modulus.val ∧
      (add c a b).val % c.modulus.val = (a.val + b.val) % c.modulus.val := by
  obtain ⟨f, hf, ef, ok, hv⟩ := add_limbs ha hb
  rw [Nat.mul_comm f] at hv
  have := finish_val hm ok hf (by rw [hv]; omega)
  rw [hv] at this
  unfold add
  dsimp only
  rw [ef]
  exact this

/-- The value of `montgomery_reduce`, for numbers below `2^256` times the modulus: the number divided by
`2^256`. -/
theorem reduce_val (hm : c.modulus.Ok) (hinv : c.modulus.l0 * c.inv % W64 = W64 - 1)
    {t : Limbs8} (ht : t.Ok) (hlt : t.val < W64 ^ 4 * c.modulus.val) :
    (montgomeryReduce c t).Ok ∧ (montgomeryReduce c t).val < c.modulus.val ∧
      (montgomeryReduce c t).val * W64 ^ 4 % c.modulus.val = t.val % c.modulus.val := by
  obtain ⟨t0, t1, t2, t3, t4, t5, t6, t7⟩ := t
  obtain ⟨⟨m0, m1, m2, m3⟩, inv, r, r2, r3⟩ := c
  obtain ⟨w0, w1, w2, w3, w4, w5, w6, w7⟩ := ht
  obtain ⟨n0, n1, n2, n3⟩ := hm
  dsimp only at *
  have hz : 0 < W64 := by norm_num [W64]
  have hW : ∀ x, x % W64 < W64 := fun x => Nat.mod_lt _ (by norm_num [W64])
  unfold montgomeryReduce
  dsimp only
  have z1 := low_zero (r := t0) hinv
  have k1 := hW (t0 * inv)
  generalize t0 * inv % W64 = k at *
  have q0 := mac_eq t0 k m0 0
  have g0 := mac_carry w0 k1 n0 hz
  generalize mac t0 k m0 0 = a0 at *
  have q1 := mac_eq t1 k m1 a0.2
  have g1 := mac_carry w1 k1 n1 g0
  have l1 := mac_lt t1 k m1 a0.2
  generalize mac t1 k m1 a0.2 = a1 at *
  have q2 := mac_eq t2 k m2 a1.2
  have g2 := mac_carry w2 k1 n2 g1
  have l2 := mac_lt t2 k m2 a1.2
  generalize mac t2 k m2 a1.2 = a2 at *
  have q3 := mac_eq t3 k m3 a2.2
  have g3 := mac_carry w3 k1 n3 g2
  have l3 := mac_lt t3 k m3 a2.2
  generalize mac t3 k m3 a2.2 = a3 at *
  have q4 := adc_eq t4 0 a3.2
  have l4 := adc_lt t4 0 a3.2
  have g4 : (adc t4 0 a3.2).2 ≤ 1 := by simp only [adc, W64] at *; omega
  generalize adc t4 0 a3.2 = a4 at *
  -- second round
  have z2 := low_zero (r := a1.1) hinv
  have k2 := hW (a1.1 * inv)
  generalize a1.1 * inv % W64 = k' at *
  have p1 := mac_eq a1.1 k' m0 0
  have h1 := mac_carry l1 k2 n0 hz
  generalize mac a1.1 k' m0 0 = b1 at *
  have p2 := mac_eq a2.1 k' m1 b1.2
  have h2 := mac_carry l2 k2 n1 h1
  have i2 := mac_lt a2.1 k' m1 b1.2
  generalize mac a2.1 k' m1 b1.2 = b2 at *
  have p3 := mac_eq a3.1 k' m2 b2.2
  have h3 := mac_carry l3 k2 n2 h2
  have i3 := mac_lt a3.1 k' m2 b2.2
  generalize mac a3.1 k' m2 b2.2 = b3 at *
  have p4 := mac_eq a4.1 k' m3 b3.2
  have h4 := mac_carry l4 k2 n3 h3
  have i4 := mac_lt a4.1 k' m3 b3.2
  generalize mac a4.1 k' m3 b3.2 = b4 at *
  have p5 := adc_eq t5 a4.2 b4.2
  have i5 := adc_lt t5 a4.2 b4.2
  have h5 : (adc t5 a4.2 b4.2).2 ≤ 1 := by simp only [adc, W64] at *; omega
  generalize adc t5 a4.2 b4.2 = b5 at *
  -- third round
  have z3 := low_zero (r := b2.1) hinv
  have k3 := hW (b2.1 * inv)
  generalize b2.1 * inv % W64 = k'' at *
  have s2 := mac_eq b2.1 k'' m0 0
  have j2 := mac_carry i2 k3 n0 hz
  generalize mac b2.1 k'' m0 0 = c2 at *
  have s3 := mac_eq b3.1 k'' m1 c2.2
  have j3 := mac_carry i3 k3 n1 j2
  have o3 := mac_lt b3.1 k'' m1 c2.2
  generalize mac b3.1 k'' m1 c2.2 = c3 at *
  have s4 := mac_eq b4.1 k'' m2 c3.2
  have j4 := mac_carry i4 k3 n2 j3
  have o4 := mac_lt b4.1 k'' m2 c3.2
  generalize mac b4.1 k'' m2 c3.2 = c4 at *
  have s5 := mac_eq b5.1 k'' m3 c4.2
  have j5 := mac_carry i5 k3 n3 j4
  have o5 := mac_lt b5.1 k'' m3 c4.2
  generalize mac b5.1 k'' m3 c4.2 = c5 at *
  have s6 := adc_eq t6 b5.2 c5.2
  have o6 := adc_lt t6 b5.2 c5.2
  have j6 : (adc t6 b5.2 c5.2).2 ≤ 1 := by simp only [adc, W64] at *; omega
  generalize adc t6 b5.2 c5.2 = c6 at *
  -- fourth round
  have z4 := low_zero (r := c3.1) hinv
  have k4 := hW (c3.1 * inv)
  generalize c3.1 * inv % W64 = k''' at *
  have u3 := mac_eq c3.1 k''' m0 0
  have v3 := mac_carry o3 k4 n0 hz
  generalize mac c3.1 k''' m0 0 = d3 at *
  have u4 := mac_eq c4.1 k''' m1 d3.2
  have v4 := mac_carry o4 k4 n1 v3
  have x4 := mac_lt c4.1 k''' m1 d3.2
  generalize mac c4.1 k''' m1 d3.2 = d4 at *
  have u5 := mac_eq c5.1 k''' m2 d4.2
  have v5 := mac_carry o5 k4 n2 v4
  have x5 := mac_lt c5.1 k''' m2 d4.2
  generalize mac c5.1 k''' m2 d4.2 = d5 at *
  have u6 := mac_eq c6.1 k''' m3 d5.2
  have v6 := mac_carry o6 k4 n3 v5
  have x6 := mac_lt c6.1 k''' m3 d5.2
  generalize mac c6.1 k''' m3 d5.2 = d6 at *
  have u7 := adc_eq t7 c6.2 d6.2
  have x7 := adc_lt t7 c6.2 d6.2
  have v7 : (adc t7 c6.2 d6.2).2 ≤ 1 := by simp only [adc, W64] at *; omega
  generalize adc t7 c6.2 d6.2 = d7 at *
  have total : W64 ^ 4 * (Limbs.val ⟨d4.1, d5.1, d6.1, d7.1⟩ + W64 ^ 4 * d7.2) =
      Limbs8.val ⟨t0, t1, t2, t3, t4, t5, t6, t7⟩ +
        (k + W64 * (k' + W64 * (k'' + W64 * k'''))) * Limbs.val ⟨m0, m1, m2, m3⟩ := by
    simp only [Limbs.val, Limbs8.val]
    generalize W64 = W at *
    zify at *
    linear_combination q0 + W * q1 + W ^ 2 * q2 + W ^ 3 * q3 + W ^ 4 * q4 - z1 +
      W * p1 + W ^ 2 * p2 + W ^ 3 * p3 + W ^ 4 * p4 + W ^ 5 * p5 - W * z2 +
      W ^ 2 * s2 + W ^ 3 * s3 + W ^ 4 * s4 + W ^ 5 * s5 + W ^ 6 * s6 - W ^ 2 * z3 +
      W ^ 3 * u3 + W ^ 4 * u4 + W ^ 5 * u5 + W ^ 6 * u6 + W ^ 7 * u7 - W ^ 3 * z4
  have hK : k + W64 * (k' + W64 * (k'' + W64 * k''')) < W64 ^ 4 := by
    simp only [W64] at *
    omega
  generalize k + W64 * (k' + W64 * (k'' + W64 * k''')) = K at *
  have ok : Limbs.Ok ⟨d4.1, d5.1, d6.1, d7.1⟩ := ⟨x4, x5, x6, x7⟩
  have hb : Limbs.val ⟨d4.1, d5.1, d6.1, d7.1⟩ + W64 ^ 4 * d7.2 < 2 * Limbs.val ⟨m0, m1, m2, m3⟩ := by
    have : K * Limbs.val ⟨m0, m1, m2, m3⟩ ≤ W64 ^ 4 * Limbs.val ⟨m0, m1, m2, m3⟩ := Nat.mul_le_mul_right _ hK.le
    refine Nat.lt_of_mul_lt_mul_left (a := W64 ^ 4) ?_
    rw [total]
    calc _ < W64 ^ 4 * Limbs.val ⟨m0, m1, m2, m3⟩ + W64 ^ 4 * Limbs.val ⟨m0, m1, m2, m3⟩ := Nat.add_lt_add_of_lt_of_le hlt this
      _ = _ := by ring
  obtain ⟨r1, r2', r3'⟩ := finish_val (c := ⟨⟨m0, m1, m2, m3⟩, inv, r, r2, r3⟩) ⟨n0, n1, n2, n3⟩ ok v7 hb
  refine ⟨r1, r2', ?_⟩
  dsimp only at r3' ⊢
  rw [Nat.mul_mod, r3', ← Nat.mul_mod, Nat.mul_comm, total, Nat.add_mul_mod_self_right]

end FieldConsts.Dense

/-- What the constants have to satisfy. -/
structure DSetup (c : FieldConsts) (p : Nat) : Prop where
  ok : c.modulus.Ok
  val : c.modulus.val = p
  inv : c.modulus.l0 * c.inv % W64 = W64 - 1
  small : p ≤ W64 ^ 4
  pos : 0 < p
  unit : ∃ i : ZMod p, 2 ^ 256 * i = 1
  r : Stands p c.r 1
  r2 : Stands p c.r2 (2 ^ 256)
  r3 : Stands p c.r3 (2 ^ 256 * 2 ^ 256)

theorem secpFp_setup : DSetup secpFpConsts secpP where
  ok := (limbs_ok_iff _).2 (by decide +kernel)
  val := by decide +kernel
  inv := by decide +kernel
  small := by decide +kernel
  pos := by decide +kernel
  unit := ⟨((0xc9bd1905155383999c46c2c295f2b761bcb223fedc24a059d838091d0868192a : Nat) : ZMod secpP), by decide +kernel⟩
  r := ⟨(limbs_ok_iff _).2 (by decide +kernel), by decide +kernel, by decide +kernel⟩
  r2 := ⟨(limbs_ok_iff _).2 (by decide +kernel), by decide +kernel, by decide +kernel⟩
  r3 := ⟨(limbs_ok_iff _).2 (by decide +kernel), by decide +kernel, by decide +kernel⟩

theorem secpFq_setup : DSetup secpFqConsts secpQ where
  ok := (limbs_ok_iff _).2 (by decide +kernel)
  val := by decide +kernel
  inv := by decide +kernel
  small := by decide +kernel
  pos := by decide +kernel
  unit := ⟨((0xd9e8890d6494ef93897f30c127cfab5d3bbbd4567fa50c3c80fd22938097c016 : Nat) : ZMod secpQ), by decide +kernel⟩
  r := ⟨(limbs_ok_iff _).2 (by decide +kernel), by decide +kernel, by decide +kernel⟩
  r2 := ⟨(limbs_ok_iff _).2 (by decide +kernel), by decide +kernel, by decide +kernel⟩
  r3 := ⟨(limbs_ok_iff _).2 (by decide +kernel), by decide +kernel, by decide +kernel⟩

theorem dsetup_of {c : FieldConsts} {p : Nat} (h : SecpField c p) : DSetup c p := by
  rcases h with ⟨rfl, rfl⟩ | ⟨rfl, rfl⟩
  · exact secpFp_setup
  · exact secpFq_setup

open FieldConsts

section

variable {c : FieldConsts} {p : Nat} (s : DSetup c p)
include s

theorem DSetup.cancel {x y : ZMod p} (h : x * 2 ^ 256 = y * 2 ^ 256) : x = y := by
  obtain ⟨i, hi⟩ := s.unit
  calc x = x * (2 ^ 256 * i) := by rw [hi, mul_one]
    _ = x * 2 ^ 256 * i := by ring
    _ = y * 2 ^ 256 * i := by rw [h]
    _ = y * (2 ^ 256 * i) := by ring
    _ = y := by rw [hi, mul_one]

theorem DSetup.unique {a b : Limbs} {x : ZMod p} (ha : Stands p a x) (hb : Stands p b x) : a = b := by
  refine Limbs.ext_val ha.ok hb.ok ?_
  have h : ((a.val : Nat) : ZMod p) = ((b.val : Nat) : ZMod p) := ha.value.trans hb.value.symm
  rw [ZMod.natCast_eq_natCast_iff', Nat.mod_eq_of_lt ha.below, Nat.mod_eq_of_lt hb.below] at h
  exact h

theorem DSetup.eq_iff {a b : Limbs} {x y : ZMod p} (ha : Stands p a x) (hb : Stands p b y) : a = b ↔ x = y := by
  constructor
  · rintro rfl
    exact s.cancel (ha.value.symm.trans hb.value)
  · rintro rfl
    exact s.unique ha hb

theorem DSetup.exists_limbs (x : ZMod p) : ∃ a, Stands p a x := by
  have : NeZero p := ⟨s.pos.ne'⟩
  have hlt := ZMod.val_lt (x * 2 ^ 256)
  have hsm := s.small
  have hval : (Limbs.ofNat (x * 2 ^ 256).val).val = (x * 2 ^ 256).val := by
    have h4 : (x * 2 ^ 256).val < W64 ^ 4 := by omega
    generalize (x * 2 ^ 256).val = v at *
    simp only [Limbs.val, Limbs.ofNat, W64] at *
    omega
  refine ⟨Limbs.ofNat (x * 2 ^ 256).val, ?_, by rw [hval]; exact hlt, by rw [hval, ZMod.natCast_zmod_val]⟩
  have hW : ∀ x, x % W64 < W64 := fun x => Nat.mod_lt _ (by norm_num [W64])
  exact ⟨hW _, hW _, hW _, hW _⟩

theorem DSetup.zero : Stands p FieldConsts.zero 0 :=
  ⟨by simp [FieldConsts.zero, Limbs.Ok], by simpa [FieldConsts.zero, Limbs.val] using s.pos,
    by simp [FieldConsts.zero, Limbs.val]⟩

theorem DSetup.eq_zero {a : Limbs} {x : ZMod p} (ha : Stands p a x) : a = FieldConsts.zero ↔ x = 0 := s.eq_iff ha s.zero

theorem DSetup.add {a b : Limbs} {x y : ZMod p} (ha : Stands p a x) (hb : Stands p b y) : Stands p (Dense.add c a b) (x + y) := by
  obtain ⟨h1, h2, h3⟩ := FieldConsts.Dense.add_val s.ok ha.ok hb.ok (by rw [s.val]; exact ha.below)
    (by rw [s.val]; exact hb.below)
  rw [s.val] at h2 h3
  refine ⟨h1, h2, ?_⟩
  rw [(ZMod.natCast_eq_natCast_iff' _ _ _).2 h3, Nat.cast_add, ha.value, hb.value]
  ring

theorem DSetup.sub {a b : Limbs} {x y : ZMod p} (ha : Stands p a x) (hb : Stands p b y) : Stands p (c.sub a b) (x - y) := by
  obtain ⟨h1, h2, h3⟩ := FieldConsts.sub_val s.ok ha.ok hb.ok
  rw [s.val] at h3
  have ha' := ha.below
  have hb' := hb.below
  by_cases h : b.val ≤ a.val
  · refine ⟨h1, by rw [h2 h]; omega, ?_⟩
    rw [h2 h, Nat.cast_sub h, ha.value, hb.value]
    ring
  · have e := h3 (by omega) (by omega)
    refine ⟨h1, by rw [e]; omega, ?_⟩
    rw [e, Nat.cast_sub (by omega), Nat.cast_add, ZMod.natCast_self, ha.value, hb.value]
    ring

theorem DSetup.neg {a : Limbs} {x : ZMod p} (ha : Stands p a x) : Stands p (c.neg a) (-x) := by
  obtain ⟨h1, h2, h3⟩ := FieldConsts.neg_val s.ok ha.ok (by rw [s.val]; exact ha.below)
  rw [s.val] at h2 h3
  refine ⟨h1, h2, ?_⟩
  have : (((c.neg a).val + a.val : Nat) : ZMod p) = ((0 : Nat) : ZMod p) :=
    (ZMod.natCast_eq_natCast_iff' _ _ _).2 (by rw [h3, Nat.zero_mod])
  rw [Nat.cast_add, Nat.cast_zero, ha.value] at this
  linear_combination this

/-- `montgomery_reduce` divides by `2^256`. -/
theorem DSetup.reduce {t : Limbs8} (ht : t.Ok) (hlt : t.val < W64 ^ 4 * p) {z : ZMod p}
    (hz : (t.val : ZMod p) = z * 2 ^ 256 * 2 ^ 256) : Stands p (Dense.montgomeryReduce c t) z := by
  obtain ⟨h1, h2, h3⟩ := FieldConsts.Dense.reduce_val s.ok s.inv ht (by rw [s.val]; exact hlt)
  rw [s.val] at h2 h3
  refine ⟨h1, h2, s.cancel ?_⟩
  rw [← hz, ← (ZMod.natCast_eq_natCast_iff' _ _ _).2 h3, Nat.cast_mul, Nat.cast_pow]
  rw [W64_pow]

/-- `mul` with any first factor. -/
theorem DSetup.mul_any {a b : Limbs} {y z : ZMod p} (ha : a.Ok) (hb : Stands p b y) (hz : (a.val : ZMod p) * y = z * 2 ^ 256) :
    Stands p (Dense.mul c a b) z := by
  obtain ⟨h1, h2⟩ := FieldConsts.mulWide_val ha hb.ok
  refine s.reduce h1 ?_ ?_
  · rw [h2]
    exact lt_of_le_of_lt (Nat.mul_le_mul_right _ (Limbs.val_lt ha).le) (Nat.mul_lt_mul_of_pos_left hb.below (by norm_num [W64]))
  · rw [h2, Nat.cast_mul, hb.value, ← hz]
    ring

theorem DSetup.mul {a b : Limbs} {x y : ZMod p} (ha : Stands p a x) (hb : Stands p b y) : Stands p (Dense.mul c a b) (x * y) :=
  s.mul_any ha.ok hb (by rw [ha.value]; ring)

theorem DSetup.square {a : Limbs} {x : ZMod p} (ha : Stands p a x) : Stands p (Dense.square c a) (x * x) := by
  obtain ⟨h1, h2⟩ := FieldConsts.squareWide_val ha.ok
  refine s.reduce h1 ?_ ?_
  · rw [h2]
    exact lt_of_le_of_lt (Nat.mul_le_mul_right _ (Limbs.val_lt ha.ok).le) (Nat.mul_lt_mul_of_pos_left ha.below (by norm_num [W64]))
  · rw [h2, Nat.cast_mul, ha.value]
    ring

theorem DSetup.fromRaw {a : Limbs} (ha : a.Ok) : Stands p (Dense.fromRaw c a) (a.val : ZMod p) := s.mul_any ha s.r2 rfl

theorem DSetup.fromU64 {v : Nat} (hv : v < 2 ^ 64) : Stands p (Dense.fromU64 c v) (v : ZMod p) := by
  refine s.mul_any (a := ⟨v, 0, 0, 0⟩) ?_ s.r2 (by simp [Limbs.val])
  simp only [Limbs.Ok, W64]
  omega

theorem DSetup.fromU128 {v : Nat} (hv : v < 2 ^ 128) : Stands p (Dense.fromU128 c v) (v : ZMod p) := by
  have h := s.fromRaw (a := ⟨v % W64, v / W64 % W64, 0, 0⟩) (by simp only [Limbs.Ok, W64]; omega)
  have e : Limbs.val ⟨v % W64, v / W64 % W64, 0, 0⟩ = v := by
    simp only [Limbs.val, W64]
    omega
  rw [e] at h
  exact h

theorem DSetup.fromBool (b : Bool) : Stands p (Dense.fromBool c b) (if b then 1 else 0) := by
  cases b
  · exact s.zero
  · exact s.r

theorem DSetup.fromU512 {v : Limbs8} (hv : WideOk v) : Stands p (Dense.fromU512 c v) (wideVal v : ZMod p) := by
  obtain ⟨h0, h1, h2, h3, h4, h5, h6, h7⟩ := hv
  have hlo := s.mul_any (a := ⟨v.l0, v.l1, v.l2, v.l3⟩) ⟨h0, h1, h2, h3⟩ s.r2 rfl
  have hhi := s.mul_any (a := ⟨v.l4, v.l5, v.l6, v.l7⟩) ⟨h4, h5, h6, h7⟩ s.r3
    (z := (Limbs.val ⟨v.l4, v.l5, v.l6, v.l7⟩ : ZMod p) * 2 ^ 256) (by ring)
  have h := s.add hlo hhi
  have e : ((Limbs.val ⟨v.l0, v.l1, v.l2, v.l3⟩ : Nat) : ZMod p) + (Limbs.val ⟨v.l4, v.l5, v.l6, v.l7⟩ : Nat) * 2 ^ 256 =
      (wideVal v : Nat) := by
    have : Limbs.val ⟨v.l0, v.l1, v.l2, v.l3⟩ + Limbs.val ⟨v.l4, v.l5, v.l6, v.l7⟩ * 2 ^ 256 = wideVal v := by
      simp only [Limbs.val, W64, wideVal]
      omega
    rw [← this, Nat.cast_add, Nat.cast_mul, Nat.cast_pow, Nat.cast_ofNat]
  rw [e] at h
  exact h

/-- The canonical form is the representative. -/
theorem DSetup.canonical {a : Limbs} {x : ZMod p} (ha : Stands p a x) :
    (Dense.canonical c a).Ok ∧ (Dense.canonical c a).val = x.val := by
  have : NeZero p := ⟨s.pos.ne'⟩
  have hz : (0 : Nat) < W64 := by norm_num [W64]
  have e : Limbs8.val ⟨a.l0, a.l1, a.l2, a.l3, 0, 0, 0, 0⟩ = a.val := by
    simp [Limbs8.val, Limbs.val]
  obtain ⟨h1, h2, h3⟩ := FieldConsts.Dense.reduce_val s.ok s.inv
    (t := ⟨a.l0, a.l1, a.l2, a.l3, 0, 0, 0, 0⟩) ⟨ha.ok.1, ha.ok.2.1, ha.ok.2.2.1, ha.ok.2.2.2, hz, hz, hz, hz⟩
    (by
      rw [e, s.val]
      exact lt_of_lt_of_le ha.below (Nat.le_mul_of_pos_left _ (by norm_num [W64])))
  rw [s.val] at h2 h3
  refine ⟨h1, ?_⟩
  have h : ((Dense.canonical c a).val : ZMod p) = x := by
    refine s.cancel ?_
    rw [← ha.value, ← e, ← (ZMod.natCast_eq_natCast_iff' _ _ _).2 h3, Nat.cast_mul, Nat.cast_pow]
    rw [W64_pow]
    rfl
  rw [← h, ZMod.val_natCast]
  exact (Nat.mod_eq_of_lt h2).symm

end

section

variable {c : FieldConsts} {p : Nat} (s : DSetup c p)
include s

theorem DSetup.toRepr {a : Limbs} {x : ZMod p} (ha : Stands p a x) : Dense.toRepr c a = leBytes 32 x.val := by
  obtain ⟨h1, h2⟩ := s.canonical ha
  unfold FieldConsts.Dense.toRepr
  dsimp only
  rw [leBytes_limbs h1, h2]

theorem DSetup.getLower128 {a : Limbs} {x : ZMod p} (ha : Stands p a x) : Dense.getLower128 c a = x.val % 2 ^ 128 := by
  obtain ⟨⟨h0, h1, h2, h3⟩, hv⟩ := s.canonical ha
  unfold FieldConsts.Dense.getLower128
  rw [Nat.or_comm, Nat.mul_comm, ← Nat.two_pow_add_eq_or_of_lt (by simpa [W64] using h0), ← hv]
  simp only [Limbs.val, W64] at *
  omega

theorem DSetup.isOdd {a : Limbs} {x : ZMod p} (ha : Stands p a x) : Dense.isOdd c a = decide (x.val % 2 = 1) := by
  unfold FieldConsts.Dense.isOdd
  rw [s.toRepr ha, show 32 = 31 + 1 from rfl]
  show (UInt8.ofNat x.val &&& 1 == 1) = _
  rw [Bool.eq_iff_iff, beq_iff_eq, decide_eq_true_eq, ← UInt8.toNat_inj, UInt8.toNat_and]
  show (UInt8.ofNat x.val).toNat &&& 1 = 1 ↔ _
  rw [Nat.and_one_is_mod, UInt8.toNat_ofNat']
  omega

theorem DSetup.fromRepr {b : List UInt8} (hb : b.length = 32) :
    (leNat b < p → ∃ a, Dense.fromRepr c b = some a ∧ Stands p a (leNat b : ZMod p)) ∧ (p ≤ leNat b → Dense.fromRepr c b = none) := by
  obtain ⟨h1, h2⟩ := limbsOf_val hb
  obtain ⟨f, hf, e, ok, hv⟩ := sub_limbs h1 s.ok
  have hlt := Limbs.val_lt ok
  have hsm := s.small
  rw [s.val, h2] at hv
  have key : (f = 1 ↔ leNat b < p) := by
    have : f = 0 ∨ f = 1 := by omega
    generalize W64 ^ 4 = R at *
    rcases this with rfl | rfl <;> omega
  unfold FieldConsts.Dense.fromRepr
  dsimp only
  rw [e]
  have : f * (W64 - 1) % 256 % 2 = f := by
    have : f = 0 ∨ f = 1 := by omega
    rcases this with rfl | rfl <;> norm_num [W64]
  rw [this]
  constructor
  · intro h
    rw [if_pos (key.2 h)]
    refine ⟨_, rfl, ?_⟩
    have := s.fromRaw h1
    rw [h2] at this
    exact this
  · intro h
    rw [if_neg (fun h' => by have := key.1 h'; omega)]

theorem DSetup.fromBytesWide {b : List UInt8} (hb : b.length = 64) : Stands p (Dense.fromBytesWide c b) (leNat b : ZMod p) := by
  have hlo : FieldConsts.limbsOf b = FieldConsts.limbsOf (b.take 32) := by
    unfold FieldConsts.limbsOf
    rw [List.take_take, List.drop_take, List.drop_take, List.drop_take, List.take_take, List.take_take, List.take_take]
    rfl
  obtain ⟨⟨a0, a1, a2, a3⟩, hl⟩ := limbsOf_val (b := b.take 32) (by rw [List.length_take, hb]; rfl)
  obtain ⟨⟨b0, b1, b2, b3⟩, hh⟩ := limbsOf_val (b := b.drop 32) (by rw [List.length_drop, hb])
  unfold FieldConsts.Dense.fromBytesWide
  dsimp only
  rw [hlo]
  have := s.fromU512 (v := ⟨(FieldConsts.limbsOf (b.take 32)).l0, (FieldConsts.limbsOf (b.take 32)).l1,
    (FieldConsts.limbsOf (b.take 32)).l2, (FieldConsts.limbsOf (b.take 32)).l3, (FieldConsts.limbsOf (b.drop 32)).l0,
    (FieldConsts.limbsOf (b.drop 32)).l1, (FieldConsts.limbsOf (b.drop 32)).l2, (FieldConsts.limbsOf (b.drop 32)).l3⟩)
    ⟨a0, a1, a2, a3, b0, b1, b2, b3⟩
  have e : wideVal ⟨(FieldConsts.limbsOf (b.take 32)).l0, (FieldConsts.limbsOf (b.take 32)).l1,
    (FieldConsts.limbsOf (b.take 32)).l2, (FieldConsts.limbsOf (b.take 32)).l3, (FieldConsts.limbsOf (b.drop 32)).l0,
    (FieldConsts.limbsOf (b.drop 32)).l1, (FieldConsts.limbsOf (b.drop 32)).l2, (FieldConsts.limbsOf (b.drop 32)).l3⟩ = leNat b := by
    conv_rhs => rw [← List.take_append_drop 32 b, leNat_append, List.length_take, hb, ← hl, ← hh]
    simp only [wideVal, Limbs.val, W64]
    norm_num
    omega
  rw [e] at this
  exact this

theorem DSetup.powBits {a : Limbs} {x : ZMod p} (ha : Stands p a x) : ∀ (bits : List Bool) {acc : Limbs} {e : Nat},
    Stands p acc (x ^ e) → Stands p (Dense.powBits c a bits acc) (x ^ (bits.foldl (fun n b => 2 * n + b.toNat) e))
  | [], _, _, h => h
  | b :: bits, acc, e, h => by
    have h2 := s.square h
    rw [← pow_add, ← Nat.two_mul] at h2
    show Stands p (Dense.powBits c a bits (if b then Dense.mul c (Dense.square c acc) a else Dense.square c acc)) _
    refine DSetup.powBits ha bits ?_
    cases b
    · exact h2
    · have := s.mul h2 ha
      rw [← pow_succ] at this
      exact this

theorem DSetup.powVarBits {a : Limbs} {x : ZMod p} (ha : Stands p a x) : ∀ (bits : List Bool) (found : Bool) {acc : Limbs}
    {e : Nat}, Stands p acc (x ^ e) → (found = false → e = 0) →
      Stands p (Dense.powVarBits c a bits found acc) (x ^ (bits.foldl (fun n b => 2 * n + b.toNat) e))
  | [], _, _, _, h, _ => h
  | b :: bits, found, acc, e, h, h0 => by
    have h2 : Stands p (if found then Dense.square c acc else acc) (x ^ (2 * e)) := by
      cases found
      · rw [h0 rfl] at h ⊢
        exact h
      · have := s.square h
        rwa [← pow_add, ← Nat.two_mul] at this
    show Stands p (if b then Dense.powVarBits c a bits true (Dense.mul c (if found then Dense.square c acc else acc) a)
      else Dense.powVarBits c a bits found (if found then Dense.square c acc else acc)) _
    cases b
    · exact DSetup.powVarBits ha bits found (e := 2 * e + false.toNat) h2 (fun h => by rw [h0 h]; rfl)
    · have := s.mul h2 ha
      rw [← pow_succ] at this
      exact DSetup.powVarBits ha bits true this (fun h => by cases h)

end

theorem DSetup.powVartime {c : FieldConsts} {p : Nat} (s : DSetup c p) {a e : Limbs} {x : ZMod p} (ha : Stands p a x) (he : e.Ok) :
    Stands p (Dense.powVartime c a e) (x ^ e.val) := by
  have h := s.powVarBits ha (FieldConsts.wordBits e.l3 ++ FieldConsts.wordBits e.l2 ++ FieldConsts.wordBits e.l1 ++
    FieldConsts.wordBits e.l0) false (acc := c.one) (e := 0) (by rw [pow_zero]; exact s.r) (fun _ => rfl)
  rw [List.foldl_append, List.foldl_append, List.foldl_append, wordBits_foldl he.2.2.2, wordBits_foldl he.2.2.1,
    wordBits_foldl he.2.1, wordBits_foldl he.1] at h
  have e' : 2 ^ 64 * (2 ^ 64 * (2 ^ 64 * (2 ^ 64 * 0 + e.l3) + e.l2) + e.l1) + e.l0 = e.val := by
    simp only [Limbs.val, W64]
    ring
  rw [e'] at h
  exact h

theorem DSetup.pow {c : FieldConsts} {p : Nat} (s : DSetup c p) {a e : Limbs} {x : ZMod p} (ha : Stands p a x) (he : e.Ok) :
    Stands p (Dense.pow c a e) (x ^ e.val) := by
  have h := s.powBits ha (FieldConsts.wordBits e.l3 ++ FieldConsts.wordBits e.l2 ++ FieldConsts.wordBits e.l1 ++
    FieldConsts.wordBits e.l0) (acc := c.one) (e := 0) (by rw [pow_zero]; exact s.r)
  rw [List.foldl_append, List.foldl_append, List.foldl_append, wordBits_foldl he.2.2.2, wordBits_foldl he.2.2.1,
    wordBits_foldl he.2.1, wordBits_foldl he.1] at h
  have e' : 2 ^ 64 * (2 ^ 64 * (2 ^ 64 * (2 ^ 64 * 0 + e.l3) + e.l2) + e.l1) + e.l0 = e.val := by
    simp only [Limbs.val, W64]
    ring
  rw [e'] at h
  exact h

theorem DSetup.cmp {c : FieldConsts} {p : Nat} (s : DSetup c p) {a b : Limbs} {x y : ZMod p} (ha : Stands p a x)
    (hb : Stands p b y) : Dense.cmp c a b = compare x.val y.val := by
  have : NeZero p := ⟨s.pos.ne'⟩
  have hsm := s.small
  have h1 := ZMod.val_lt x
  have h2 := ZMod.val_lt y
  have h3 : p ≤ 256 ^ 32 := by
    refine le_trans hsm ?_
    norm_num [W64]
  unfold FieldConsts.Dense.cmp
  rw [s.toRepr ha, s.toRepr hb, compare_leNat _ _ (by rw [leBytes_length, leBytes_length]), leNat_leBytes _ _ (by omega),
    leNat_leBytes _ _ (by omega)]

end Verif
