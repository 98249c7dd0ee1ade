import Mathlib.GroupTheory.OrderOfElement
import Mathlib.GroupTheory.Perm.Cycle.Type
import Verif.Lemmas.CurveOrder
import Verif.Lemmas.PairGroup
import Verif.Lemmas.PrattCofactor

/-! The number of points of the second curve; the points of order `P` are the multiples of the generator. -/

namespace Verif.Tower

open Verif.Spec WeierstrassCurve.Affine

/-- One bit that tells a number from its negative. -/
def sgn (y : Fq2 Fq) : Bool := if y.c0 = 0 then decide (y.c1.val % 2 = 1) else decide (y.c0.val % 2 = 1)

theorem same_sgn {y z : Fq2 Fq} (h : y ^ 2 = z ^ 2) (hp : sgn y = sgn z) : y = z := by
  rcases sq_eq_sq_iff_eq_or_eq_neg.1 h with h | rfl
  · exact h
  · unfold sgn at hp
    by_cases h0 : z.c0 = 0
    · have e : (-z).c0 = 0 := by rw [Fq2.neg_c0, h0, neg_zero]
      rw [if_pos h0, if_pos e] at hp
      refine Fq2.ext (by rw [e, h0]) (same_parity ?_ hp)
      rw [Fq2.neg_c1, neg_pow_two]
    · have e : (-z).c0 ≠ 0 := by rw [Fq2.neg_c0]; exact neg_ne_zero.2 h0
      rw [if_neg h0, if_neg e] at hp
      have : (-z).c0 = z.c0 := same_parity (by rw [Fq2.neg_c0, neg_pow_two]) hp
      exfalso
      rw [Fq2.neg_c0] at this
      have h2 : (2 : Fq) * z.c0 = 0 := by linear_combination -this
      exact h0 ((mul_eq_zero.1 h2).resolve_left smooth_three.two)

/-- A point is known from its first coordinate and that bit of the second. -/
def tag2 : Pt B2 → Option (Fq2 Fq × Bool)
  | .zero => none
  | .some x y _ => some (x, sgn y)

theorem tag2_injective : Function.Injective tag2 := by
  intro A B h
  match A, B, h with
  | .zero, .zero, _ => rfl
  | .some x1 y1 h1, .some x2 y2 h2, h =>
    simp only [tag2, Option.some.injEq, Prod.mk.injEq] at h
    obtain ⟨rfl, hy⟩ := h
    have : y1 = y2 := same_sgn (by rw [point_eq h1, point_eq h2]) hy
    subst this
    rfl

instance : Finite (Pt B2) := Finite.of_injective tag2 tag2_injective

theorem card_le2 : Nat.card (Pt B2) ≤ 2 * Q ^ 2 + 1 := by
  refine (Nat.card_le_card_of_injective tag2 tag2_injective).trans ?_
  rw [Nat.card_eq_fintype_card, Fintype.card_option, Fintype.card_prod, Fintype.card_bool, Fq2.card]
  omega

/-- 60516 is not a cube. -/
theorem not_cube2 : (60516 : Fq) ^ ((Q - 1) / 3) ≠ 1 := by
  have s := fq_setup
  have h3 : Stands Q (fqConsts.fromU64 60516) (60516 : Fq) := s.fromU64 (v := 60516) (by norm_num)
  have hp := s.pow h3 (e := ⟨0x69602eb24829a9c2, 0xdd2b2385cd7b4384, 0xe81ac1e7808072c9, 0x10216f7ba065e00d⟩)
    ((limbs_ok_iff _).2 (by decide +kernel))
  have e : Limbs.val ⟨0x69602eb24829a9c2, 0xdd2b2385cd7b4384, 0xe81ac1e7808072c9, 0x10216f7ba065e00d⟩ = (Q - 1) / 3 := by
    decide +kernel
  rw [e] at hp
  intro h
  have := (s.eq_iff hp s.r).2 h
  revert this
  decide +kernel

theorem no_two_torsion2 {A : Pt B2} (h : A + A = 0) : A = 0 := by
  match A, h with
  | .zero, _ => rfl
  | .some x y hn, h =>
    exfalso
    by_cases y0 : y = 0
    · have he := point_eq hn
      rw [y0] at he
      have hx : x ^ 3 * Fq2.xi = -3 := by rw [← b2_xi]; linear_combination -Fq2.xi * he
      have hN := congrArg Fq2.norm hx
      rw [pow_succ, pow_two, Fq2.norm_mul, Fq2.norm_mul, Fq2.norm_mul, show Fq2.norm (Fq2.xi : Fq2 Fq) = 82 by decide +kernel,
        show Fq2.norm (-3 : Fq2 Fq) = 9 by decide +kernel] at hN
      have hc : (82 * x.norm) ^ 3 = 60516 := by linear_combination 82 ^ 2 * hN
      have x0 : 82 * x.norm ≠ 0 := by
        intro e
        rw [e] at hc
        exact absurd hc (by decide +kernel)
      have h1 : (82 * x.norm) ^ (Q - 1) = 1 := ZMod.pow_card_sub_one_eq_one x0
      rw [show Q - 1 = 3 * ((Q - 1) / 3) by decide +kernel, pow_mul, hc] at h1
      exact not_cube2 h1
    · obtain ⟨hn', e⟩ := double_point smooth2 (h1 := hn) y0
      rw [e] at h
      exact Point.some_ne_zero hn' h

/-- The cofactor. -/
def cofactor : Nat := 2 * Q - P

theorem nsmul_ne_of {b : Fq2 Fq} (s : Smooth b) {p : Jac (Fq2 Fq)} {A : Pt b} (h : JacIs p A) (n : Nat) (hn : n < 256 ^ 32)
    (hz : (p.mul (leBytes 32 n)).z ≠ 0) : n • A ≠ 0 := by
  obtain ⟨l, hl⟩ : ∃ l, l = leBytes 32 n := ⟨_, rfl⟩
  rw [← hl] at hz
  have h2 := mul_is s h l
  have hl' : leNat l = n := hl ▸ leNat_leBytes 32 n hn
  rw [hl'] at h2
  intro e
  exact hz (jac_zero.1 (jac_congr h2 e))

/-- A point whose order is the cofactor. -/
def other2 : Aff (Fq2 Fq) :=
  ⟨⟨12449809347824824073929964793537538272792066846557360436674515403760722048593,
    6833220850417336253699040162630430029311385334883328197502640595056151302508⟩,
   ⟨12676962405547438761413333211314096723026960849353574309063316773424184031811,
    12628908397913110544468529427854163908017316685594631546736530946916541228307⟩⟩

def jacOther2 : Jac (Fq2 Fq) := ⟨other2.x, other2.y, 1⟩

noncomputable def ptOther2 : Pt B2 := .some other2.x other2.y ((nonsingular_curve smooth2).2 (by decide +kernel))

theorem other2_is : JacIs jacOther2 ptOther2 := jac_one

theorem other2_zero : cofactor • ptOther2 = 0 := nsmul_zero_of smooth2 other2_is cofactor (by decide +kernel) (by decide +kernel)

theorem other2_ne (p : Nat) (hp : p = 10069 ∨ p = 5864401 ∨ p = 1875725156269 ∨
    p = 197620364512881247228717050342013327560683201906968909) : (cofactor / p) • ptOther2 ≠ 0 := by
  rcases hp with h | h | h | h <;> rw [h]
  · exact nsmul_ne_of smooth2 other2_is (cofactor / 10069) (by decide +kernel) (by decide +kernel)
  · exact nsmul_ne_of smooth2 other2_is (cofactor / 5864401) (by decide +kernel) (by decide +kernel)
  · exact nsmul_ne_of smooth2 other2_is (cofactor / 1875725156269) (by decide +kernel) (by decide +kernel)
  · exact nsmul_ne_of smooth2 other2_is (cofactor / 197620364512881247228717050342013327560683201906968909) (by decide +kernel)
      (by decide +kernel)

theorem cofactor_eq : cofactor = 10069 * 5864401 * 1875725156269 * 197620364512881247228717050342013327560683201906968909 := by
  decide +kernel

theorem cofactor_primes {p : Nat} (hp : p.Prime) (h : p ∣ cofactor) : p = 10069 ∨ p = 5864401 ∨ p = 1875725156269 ∨
    p = 197620364512881247228717050342013327560683201906968909 := by
  rw [cofactor_eq] at h
  rcases (hp.dvd_mul).1 h with h | h
  · rcases (hp.dvd_mul).1 h with h | h
    · rcases (hp.dvd_mul).1 h with h | h
      · exact .inl ((Nat.prime_dvd_prime_iff_eq hp (by norm_num)).1 h)
      · exact .inr (.inl ((Nat.prime_dvd_prime_iff_eq hp Pratt.prime_5864401).1 h))
    · exact .inr (.inr (.inl ((Nat.prime_dvd_prime_iff_eq hp Pratt.prime_1875725156269).1 h)))
  · exact .inr (.inr (.inr ((Nat.prime_dvd_prime_iff_eq hp
      Pratt.prime_197620364512881247228717050342013327560683201906968909).1 h)))

theorem order_other2 : addOrderOf ptOther2 = cofactor :=
  addOrderOf_eq_of_nsmul_and_div_prime_nsmul (by decide +kernel) other2_zero fun _ hp h => other2_ne _ (cofactor_primes hp h)

theorem addOrder_gen2 : addOrderOf gen2 = P := addOrderOf_eq_prime order_gen2 gen2_ne

theorem coprime_cofactor : Nat.Coprime P cofactor := by decide +kernel

/-- The number of points of the second curve. -/
theorem card_points2 : Nat.card (Pt B2) = P * cofactor := by
  have h1 : P ∣ Nat.card (Pt B2) := addOrder_gen2 ▸ addOrderOf_dvd_natCard gen2
  have h2 : cofactor ∣ Nat.card (Pt B2) := order_other2 ▸ addOrderOf_dvd_natCard ptOther2
  obtain ⟨m, hm⟩ := coprime_cofactor.mul_dvd_of_dvd_of_dvd h1 h2
  have hle := card_le2
  have hpos : 0 < Nat.card (Pt B2) := Nat.card_pos
  have h3 : 2 * Q ^ 2 + 1 < P * cofactor * 3 := by decide +kernel
  have hodd : ¬ 2 ∣ Nat.card (Pt B2) := by
    intro h
    obtain ⟨A, hA⟩ := exists_prime_addOrderOf_dvd_card' 2 h
    have h2 := addOrderOf_nsmul_eq_zero A
    rw [hA, two_nsmul] at h2
    rw [no_two_torsion2 h2, addOrderOf_zero] at hA
    omega
  have hlt : m < 3 := by
    by_contra hc
    have : P * cofactor * 3 ≤ P * cofactor * m := Nat.mul_le_mul_left _ (by omega)
    omega
  have hm0 : m ≠ 0 := by rintro rfl; omega
  have hm2 : m ≠ 2 := by
    rintro rfl
    exact hodd ⟨P * cofactor, by rw [hm]; ring⟩
  have : m = 1 := by omega
  rw [hm, this, mul_one]

/-- The points of order `P` are the multiples of the generator. -/
theorem inG2_iff (B : Pt B2) : InG2 B ↔ P • B = 0 := by
  refine ⟨InG2.order, fun h => ?_⟩
  have hi : (AddSubgroup.zmultiples gen2).index = cofactor := by
    have := AddSubgroup.card_mul_index (AddSubgroup.zmultiples gen2)
    rw [Nat.card_zmultiples, addOrder_gen2, card_points2] at this
    exact Nat.eq_of_mul_eq_mul_left (by decide +kernel) this
  have hq : (QuotientAddGroup.mk' (AddSubgroup.zmultiples gen2)) B = 0 := by
    have d1 : addOrderOf ((QuotientAddGroup.mk' (AddSubgroup.zmultiples gen2)) B) ∣ P := by
      rw [addOrderOf_dvd_iff_nsmul_eq_zero, ← map_nsmul, h, map_zero]
    have d2 : addOrderOf ((QuotientAddGroup.mk' (AddSubgroup.zmultiples gen2)) B) ∣ cofactor := by
      rw [← hi]
      exact addOrderOf_dvd_natCard _
    have := Nat.eq_one_of_dvd_coprimes coprime_cofactor d1 d2
    exact AddMonoid.addOrderOf_eq_one_iff.1 this
  rw [QuotientAddGroup.mk'_apply, QuotientAddGroup.eq_zero_iff, ← mem_multiples_iff_mem_zmultiples,
    AddSubmonoid.mem_multiples_iff] at hq
  obtain ⟨k, hk⟩ := hq
  exact ⟨k, hk.symm⟩

theorem cofactor_inG2 (A : Pt B2) : InG2 (cofactor • A) := by
  rw [inG2_iff, ← mul_nsmul, Nat.mul_comm, ← card_points2]
  exact card_nsmul_eq_zero'

/-! ### The loops -/

theorem timesConst_is {p : Jac (Fq2 Fq)} {A : Pt B2} (h : JacIs p A) (e : List UInt8) {n : Nat}
    (hn : (bitsAfterFirst e).foldl (fun n b => 2 * n + b.toNat) 0 = n) : JacIs (timesConst p e) (n • A) := by
  have := ladder_is smooth2 (A := A) (step := fun acc => acc.add p) (fun hacc => add_is smooth2 hacc h) (bitsAfterFirst e)
    (acc := Jac.identity) (n := 0) (jac_congr (jac_zero.2 rfl) (zero_nsmul A).symm)
  rwa [hn] at this

/-- The number the bits stand for. -/
def bitsNat (e : List UInt8) : Nat := (bitsAfterFirst e).foldl (fun n b => 2 * n + b.toNat) 0

theorem times_eq {p : Jac (Fq2 Fq)} {A : Pt B2} (h : JacIs p A) (e : List UInt8) (n : Nat) (hn : bitsNat e = n) {r : Jac (Fq2 Fq)}
    (hr : r = timesConst p e) : JacIs r (n • A) := by
  rw [hr]
  exact timesConst_is h e hn

theorem clear_is {p : Jac (Fq2 Fq)} {A : Pt B2} (h : JacIs p A) (n : Nat) (hn : n = cofactor) : JacIs (clearCofactor2 p) (n • A) := by
  rw [clearCofactor2.eq_1]
  refine timesConst_is h _ ?_
  rw [hn]
  decide +kernel

theorem torsion_iff {p : Jac (Fq2 Fq)} {A : Pt B2} (h : JacIs p A) (e : List UInt8) (n : Nat) (hn : bitsNat e = n) :
    (timesConst p e).isIdentity = true ↔ n • A = 0 := by
  have := timesConst_is h e hn
  unfold Jac.isIdentity
  rw [decide_eq_true_iff]
  exact ⟨fun hz => jac_unique this (jac_zero.2 hz), fun e => jac_zero.1 (jac_congr this e)⟩

theorem isTorsionFree2_iff {p : Jac (Fq2 Fq)} {A : Pt B2} (h : JacIs p A) : isTorsionFree2 p = true ↔ P • A = 0 := by
  rw [isTorsionFree2.eq_1]
  exact torsion_iff h _ P (by decide +kernel)

end Verif.Tower
