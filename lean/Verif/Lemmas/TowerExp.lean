import Verif.Lemmas.TowerFrob

/-! Cyclotomic squaring and the final exponentiation. -/

namespace Verif.Tower

open Spec

open Fq2 (xi)

theorem fp4Square_eq (a b : Fq2 Fq) : Fq12.fp4Square a b = (a * a + xi * (b * b), 2 * a * b) := by
  unfold Fq12.fp4Square
  dsimp only
  rw [Fq2.square_eq, Fq2.square_eq, Fq2.square_eq, Fq2.mulByNonresidue_eq]
  refine Prod.ext ?_ ?_ <;> dsimp only <;> ring

theorem cyclotomicSquare_eq (a : Fq12 Fq) : a.cyclotomicSquare =
    ⟨⟨3 * (a.c0.c0 * a.c0.c0 + xi * (a.c1.c1 * a.c1.c1)) - 2 * a.c0.c0,
      3 * (a.c1.c0 * a.c1.c0 + xi * (a.c0.c2 * a.c0.c2)) - 2 * a.c0.c1,
      3 * (a.c0.c1 * a.c0.c1 + xi * (a.c1.c2 * a.c1.c2)) - 2 * a.c0.c2⟩,
     ⟨6 * xi * (a.c0.c1 * a.c1.c2) + 2 * a.c1.c0,
      6 * (a.c0.c0 * a.c1.c1) + 2 * a.c1.c1,
      6 * (a.c1.c0 * a.c0.c2) + 2 * a.c1.c2⟩⟩ := by
  unfold Fq12.cyclotomicSquare
  rw [fp4Square_eq, fp4Square_eq, fp4Square_eq]
  dsimp only
  simp only [Fq2.double_eq, Fq2.mulByNonresidue_eq]
  refine Fq12.ext (Fq6.ext ?_ ?_ ?_) (Fq6.ext ?_ ?_ ?_) <;> dsimp only <;> ring

/-- The primitive sixth root of unity. -/
noncomputable abbrev zeta : Fq2 Fq := G 2

theorem zeta_rel : zeta ^ 2 = zeta - 1 := by
  rw [pow_two]
  decide +kernel

theorem G_four : G 4 = zeta ^ 2 := by
  rw [pow_two]
  decide +kernel

theorem frob_two (a : Fq12 Fq) : a ^ Q ^ 2 =
    ⟨⟨a.c0.c0, a.c0.c1 * zeta ^ 2, a.c0.c2 * zeta ^ 4⟩, ⟨a.c1.c0 * zeta, a.c1.c1 * zeta ^ 3, a.c1.c2 * zeta ^ 5⟩⟩ := by
  rw [← frob12_pow, frob12_eq]
  simp [conjs, conj_conj]

theorem frob_four (a : Fq12 Fq) : a ^ Q ^ 4 =
    ⟨⟨a.c0.c0, a.c0.c1 * (zeta ^ 2) ^ 2, a.c0.c2 * (zeta ^ 2) ^ 4⟩,
     ⟨a.c1.c0 * zeta ^ 2, a.c1.c1 * (zeta ^ 2) ^ 3, a.c1.c2 * (zeta ^ 2) ^ 5⟩⟩ := by
  rw [← frob12_pow, frob12_eq, G_four]
  simp [conjs, conj_conj]

theorem frob_six (a : Fq12 Fq) : a ^ Q ^ 6 = a.conjugate := by
  rw [← frob12_pow, frob12_eq, show G 6 = -1 by decide +kernel]
  refine Fq12.ext (Fq6.ext ?_ ?_ ?_) (Fq6.ext ?_ ?_ ?_) <;> simp [conjs, conj_conj, Fq12.conjugate] <;> ring

theorem two_ne : (2 : Fq2 Fq) ≠ 0 := by
  have h : ((2 : Nat) : Fq2 Fq) ≠ 0 := by
    rw [Ne, CharP.cast_eq_zero_iff (Fq2 Fq) Q]
    decide +kernel
  exact_mod_cast h

theorem zeta_ne : zeta ≠ 0 := by decide +kernel

/-- When the code's cyclotomic squaring is the square. -/
theorem cyclotomic_iff (a : Fq12 Fq) : a.cyclotomicSquare = a * a ↔ a ^ Q ^ 4 * a = a ^ Q ^ 2 := by
  rw [frob_two, frob_four, cyclotomicSquare_eq]
  obtain ⟨⟨x0, x2, x4⟩, ⟨x1, x3, x5⟩⟩ := a
  have hz := zeta_rel
  have h2 := two_ne
  have hn := zeta_ne
  generalize zeta = z at *
  have z3 : z ^ 3 = -1 := by linear_combination (z + 1) * hz
  have z4 : z ^ 4 = -z := by linear_combination z * z3
  have z5 : z ^ 5 = 1 - z := by linear_combination z ^ 2 * z3 - hz
  have y2 : (z ^ 2) ^ 2 = -z := by linear_combination z4
  have y3 : (z ^ 2) ^ 3 = 1 := by linear_combination (z ^ 3 - 1) * z3
  have y4 : (z ^ 2) ^ 4 = z - 1 := by linear_combination (z ^ 5 - z ^ 2) * z3 + hz
  have y5 : (z ^ 2) ^ 5 = -z := by linear_combination (z ^ 7 - z ^ 4) * z3 + z4
  rw [y2, y3, y4, y5, z3, z4, z5, hz]
  simp only [Fq12.ext_iff, Fq6.ext_iff, Fq12.mul_c0, Fq12.mul_c1, Fq6.mul_c0, Fq6.mul_c1, Fq6.mul_c2, Fq6.add_c0,
    Fq6.add_c1, Fq6.add_c2, Fq6.v, zero_mul, one_mul, zero_add, add_zero]
  have hn' : z - 1 ≠ 0 := by
    rw [← hz]
    exact pow_ne_zero 2 hn
  have key : ∀ {p q l r : Fq2 Fq} (k : Fq2 Fq), k ≠ 0 → (p - q) = k * (l - r) → (p = q ↔ l = r) := by
    intro p q l r k hk e
    rw [← sub_eq_zero, e, mul_eq_zero, sub_eq_zero]
    simp [hk]
  refine and_congr (and_congr ?_ (and_congr ?_ ?_)) (and_congr ?_ (and_congr ?_ ?_))
  · refine key 2 h2 ?_
    ring
  · refine key (-2 * z) (mul_ne_zero (neg_ne_zero.2 h2) hn) ?_
    linear_combination 2 * (x1 * x1 + xi * (x4 * x4) - x0 * x2 - xi * (x3 * x5) - x2) * hz
  · refine key (2 * (z - 1)) (mul_ne_zero h2 hn') ?_
    linear_combination 2 * (x2 * x2 + xi * (x5 * x5) - x0 * x4 - x1 * x3 - x4) * hz
  · refine key (2 * (z - 1)) (mul_ne_zero h2 hn') ?_
    linear_combination -2 * (x0 * x1 - 2 * xi * (x2 * x5) + xi * (x3 * x4) - x1) * hz
  · refine key 2 h2 ?_
    ring
  · refine key (-2 * z) (mul_ne_zero (neg_ne_zero.2 h2) hn) ?_
    linear_combination 2 * (2 * x1 * x4 - x0 * x5 - x2 * x3 + x5) * hz

/-- The elements of order dividing q⁴ - q² + 1. -/
def Cyc (a : Fq12 Fq) : Prop := a ^ (Q ^ 4 - Q ^ 2 + 1) = 1

theorem Cyc.ne_zero {a : Fq12 Fq} (h : Cyc a) : a ≠ 0 := by
  rintro rfl
  unfold Cyc at h
  rw [pow_succ, mul_zero] at h
  exact zero_ne_one h

theorem cyc_iff {a : Fq12 Fq} (ha : a ≠ 0) : a ^ Q ^ 4 * a = a ^ Q ^ 2 ↔ Cyc a := by
  have e : Q ^ 4 = (Q ^ 4 - Q ^ 2) + Q ^ 2 := by decide +kernel
  have hp : a ^ Q ^ 2 ≠ 0 := pow_ne_zero _ ha
  unfold Cyc
  have : a ^ Q ^ 4 * a = a ^ (Q ^ 4 - Q ^ 2 + 1) * a ^ Q ^ 2 := by
    rw [← pow_add, ← pow_succ]
    congr 1
  rw [this]
  exact ⟨fun h => mul_right_cancel₀ hp (by rw [h, one_mul]), fun h => by rw [h, one_mul]⟩

theorem Cyc.square {a : Fq12 Fq} (h : Cyc a) : a.cyclotomicSquare = a ^ 2 := by
  rw [pow_two]
  exact (cyclotomic_iff a).2 ((cyc_iff h.ne_zero).2 h)

theorem Cyc.mul {a b : Fq12 Fq} (ha : Cyc a) (hb : Cyc b) : Cyc (a * b) := by
  unfold Cyc at *
  rw [mul_pow, ha, hb, one_mul]

theorem Cyc.pow {a : Fq12 Fq} (ha : Cyc a) (n : Nat) : Cyc (a ^ n) := by
  unfold Cyc at *
  rw [← pow_mul, mul_comm, pow_mul, ha, one_pow]

theorem Cyc.zpow {a : Fq12 Fq} (ha : Cyc a) (n : Int) : Cyc (a ^ n) := by
  unfold Cyc at *
  rw [← zpow_natCast, ← zpow_mul, mul_comm, zpow_mul, zpow_natCast, ha, one_zpow]

theorem Cyc.one : Cyc 1 := one_pow _

theorem Cyc.conjugate {a : Fq12 Fq} (ha : Cyc a) : a.conjugate = a⁻¹ := by
  refine eq_inv_of_mul_eq_one_left ?_
  rw [← frob_six, ← pow_succ, show Q ^ 6 + 1 = (Q ^ 4 - Q ^ 2 + 1) * (Q ^ 2 + 1) by decide +kernel, pow_mul, ha, one_pow]

/-! The loop of `exp_by_x`. -/

theorem expBits_eq {f : Fq12 Fq} (hf : Cyc f) (x : Nat) : ∀ i (e : Nat), Fq12.expBits f x i (f ^ e) = f ^ (e * 2 ^ i + x % 2 ^ i) := by
  intro i
  induction i with
  | zero => intro e; simp [Fq12.expBits, Nat.mod_one]
  | succ i ih =>
    intro e
    unfold Fq12.expBits
    dsimp only
    rw [(hf.pow e).square, ← pow_mul]
    have hx : x % 2 ^ (i + 1) = (x.testBit i).toNat * 2 ^ i + x % 2 ^ i := by
      rw [Nat.mod_pow_succ, Nat.toNat_testBit]
      ring
    rw [hx]
    split
    · next hb =>
      rw [Fq12.mulAssign_eq, ← pow_succ, ih, hb]
      congr 1
      simp only [Bool.toNat_true]
      ring
    · next hb =>
      rw [ih, Bool.not_eq_true _ |>.mp hb]
      congr 1
      simp only [Bool.toNat_false]
      ring

theorem expByX_eq {f : Fq12 Fq} (hf : Cyc f) : f.expByX = f ^ BN_X := by
  have h := expBits_eq hf BN_X 64 0
  rw [pow_zero] at h
  unfold Fq12.expByX
  rw [h]
  congr 1

/-! The final exponentiation. -/

theorem expByX_zpow {f : Fq12 Fq} (hf : Cyc f) (n : Int) : (f ^ n).expByX = f ^ (n * (BN_X : Int)) := by
  rw [expByX_eq (hf.zpow n), ← zpow_natCast, ← zpow_mul]

theorem frob_zpow (f : Fq12 Fq) (n : Int) (i : Nat) : (f ^ n).frobeniusMap decoded i = f ^ (n * (Q : Int) ^ i) := by
  rw [frob12_pow, ← zpow_natCast, ← zpow_mul]
  push_cast
  rfl

theorem conj_zpow {f : Fq12 Fq} (hf : Cyc f) (n : Int) : (f ^ n).conjugate = f ^ (-n) := by
  rw [(hf.zpow n).conjugate, zpow_neg]

theorem sq_zpow {f : Fq12 Fq} (hf : Cyc f) (n : Int) : (f ^ n).cyclotomicSquare = f ^ (n * 2) := by
  rw [(hf.zpow n).square, ← zpow_natCast, ← zpow_mul]
  rfl

theorem mul_zpow' {f : Fq12 Fq} (hf : Cyc f) (m n : Int) : (f ^ m).mulAssign (f ^ n) = f ^ (m + n) := by
  rw [Fq12.mulAssign_eq, zpow_add₀ hf.ne_zero]

/-- The part of `final_exponentiation` after the first two steps. -/
def hardPart (dec : Limbs → Fq) (r : Fq12 Fq) : Fq12 Fq :=
  let fp := r.frobeniusMap dec 1
  let fp2 := r.frobeniusMap dec 2
  let fp3 := fp2.frobeniusMap dec 1
  let fu := r.expByX
  let fu2 := fu.expByX
  let fu3 := fu2.expByX
  let y3 := fu.frobeniusMap dec 1
  let fu2p := fu2.frobeniusMap dec 1
  let fu3p := fu3.frobeniusMap dec 1
  let y2 := fu2.frobeniusMap dec 2
  let y0 := fp.mulAssign fp2
  let y0 := y0.mulAssign fp3
  let y1 := r.conjugate
  let y5 := fu2.conjugate
  let y3 := y3.conjugate
  let y4 := fu.mulAssign fu2p
  let y4 := y4.conjugate
  let y6 := fu3.mulAssign fu3p
  let y6 := y6.conjugate
  let y6 := y6.cyclotomicSquare
  let y6 := y6.mulAssign y4
  let y6 := y6.mulAssign y5
  let t1 := y3.mulAssign y5
  let t1 := t1.mulAssign y6
  let y6 := y6.mulAssign y2
  let t1 := t1.cyclotomicSquare
  let t1 := t1.mulAssign y6
  let t1 := t1.cyclotomicSquare
  let t0 := t1.mulAssign y1
  let t1 := t1.mulAssign y0
  let t0 := t0.cyclotomicSquare
  t0.mulAssign t1

theorem hardPart_eq {f : Fq12 Fq} (hf : Cyc f) : hardPart decoded f = f ^ ((Q ^ 4 - Q ^ 2 + 1) / P) := by
  have h : hardPart decoded (f ^ (1 : Int)) = f ^ ((Q ^ 4 - Q ^ 2 + 1) / P) := by
    unfold hardPart
    dsimp only
    simp only [frob_zpow, expByX_zpow hf, conj_zpow hf, mul_zpow' hf, sq_zpow hf]
    rw [← zpow_natCast f ((Q ^ 4 - Q ^ 2 + 1) / P)]
    congr 1
  rwa [zpow_one] at h

theorem finalTail_eq {a : Fq12 Fq} (ha : a ≠ 0) :
    Fq12.finalTail decoded a.conjugate a⁻¹ = a ^ ((Q ^ 12 - 1) / P) := by
  have e1 : a.conjugate.mulAssign a⁻¹ = a ^ (Q ^ 6 - 1) := by
    rw [Fq12.mulAssign_eq, ← frob_six, ← pow_sub_one_mul (M := Fq12 Fq) (by decide +kernel : Q ^ 6 ≠ 0), mul_assoc,
      mul_inv_cancel₀ ha, mul_one]
  have e2 : ((a ^ (Q ^ 6 - 1)).frobeniusMap decoded 2).mulAssign (a ^ (Q ^ 6 - 1)) = a ^ ((Q ^ 6 - 1) * (Q ^ 2 + 1)) := by
    rw [Fq12.mulAssign_eq, frob12_pow, ← pow_mul, ← pow_add]
    rfl
  have hc : Cyc (a ^ ((Q ^ 6 - 1) * (Q ^ 2 + 1))) := by
    unfold Cyc
    rw [← pow_mul, show (Q ^ 6 - 1) * (Q ^ 2 + 1) * (Q ^ 4 - Q ^ 2 + 1) = Q ^ 12 - 1 by decide +kernel, ← Fq12.card]
    exact FiniteField.pow_card_sub_one_eq_one a ha
  show hardPart decoded (((a.conjugate.mulAssign a⁻¹).frobeniusMap decoded 2).mulAssign (a.conjugate.mulAssign a⁻¹)) = _
  rw [e1, e2, hardPart_eq hc, ← pow_mul]
  congr 1

theorem finalExponentiation_eq (a : Fq12 Fq) :
    a.finalExponentiation decoded = if a = 0 then .error .unwrap else .ok (a ^ ((Q ^ 12 - 1) / P)) := by
  unfold Fq12.finalExponentiation
  rw [Fq12.invert_spec]
  by_cases h : a = 0
  · rw [if_pos h, if_pos h]
  · rw [if_neg h, if_neg h]
    dsimp only
    rw [finalTail_eq h]

end Verif.Tower
