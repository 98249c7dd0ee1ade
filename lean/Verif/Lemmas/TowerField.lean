import Mathlib.NumberTheory.LegendreSymbol.QuadraticReciprocity
import Mathlib.FieldTheory.Finite.Basic
import Mathlib.Algebra.CharP.Lemmas
import Verif.Lemmas.TowerRing
import Verif.Lemmas.Pratt
import Verif.Lemmas.PrattBase
import Verif.Spec.Tower

/-! Over the base field of bn256 the three rings are fields, and what raising to the power q does there. -/

namespace Verif.Tower

open Spec

/-- Powers, by squaring. -/
def powFast {M : Type} [Mul M] : Nat → M → Nat → M → M
  | 0, _, _, acc => acc
  | fuel + 1, a, e, acc => if e = 0 then acc else powFast fuel (a * a) (e / 2) (if e % 2 = 1 then acc * a else acc)

theorem powFast_eq {M : Type} [CommMonoid M] (fuel : Nat) : ∀ (a : M) (e : Nat) (acc : M), e < 2 ^ fuel →
    powFast fuel a e acc = acc * a ^ e := by
  induction fuel with
  | zero =>
    intro a e acc h
    have : e = 0 := by omega
    subst this
    simp [powFast]
  | succ n ih =>
    intro a e acc h
    unfold powFast
    split
    · next h0 => subst h0; simp
    · rw [ih _ _ _ (by rw [pow_succ] at h; omega)]
      have he : e = 2 * (e / 2) + e % 2 := by omega
      conv_rhs => rw [he, pow_add, pow_mul]
      rcases Nat.mod_two_eq_zero_or_one e with h2 | h2
      · simp [h2, pow_two]
      · rw [if_pos h2, h2, pow_one, pow_two, mul_assoc, mul_comm a]

/-- A power in the base field, computed. -/
theorem fq_pow (a e r : Nat) (he : e < 2 ^ 300) (h : Pratt.powMod Q 300 a e 1 % Q = r) :
    ((a : Nat) : Fq) ^ e = ((r : Nat) : Fq) := by
  have := Pratt.powMod_cast Q 300 a e 1 he
  rw [Nat.cast_one, one_mul] at this
  rw [← this, ← h, ZMod.natCast_mod]

theorem neg_one_not_square (x : Fq) : x ^ 2 ≠ -1 := by
  intro h
  have : IsSquare (-1 : ZMod Q) := ⟨x, by rw [← h, pow_two]⟩
  exact ZMod.mod_four_ne_three_of_sq_eq_neg_one (p := Q) (y := x) h (by decide +kernel)

theorem eightyTwo_not_square (x : Fq) : x ^ 2 ≠ 82 := by
  intro h
  have hx : x ≠ 0 := by
    rintro rfl
    revert h
    decide +kernel
  have h1 : (82 : Fq) ^ ((Q - 1) / 2) = 1 := by
    rw [← h, ← pow_mul, show 2 * ((Q - 1) / 2) = Q - 1 by decide +kernel]
    exact ZMod.pow_card_sub_one_eq_one hx
  have h2 := fq_pow 82 ((Q - 1) / 2) (Q - 1) (by decide +kernel) (by decide +kernel)
  rw [show ((82 : Nat) : Fq) = 82 by norm_num, h1] at h2
  revert h2
  decide +kernel

theorem eightyTwo_not_cube (x : Fq) : x ^ 3 ≠ 82 := by
  intro h
  have hx : x ≠ 0 := by
    rintro rfl
    revert h
    decide +kernel
  have h1 : (82 : Fq) ^ ((Q - 1) / 3) = 1 := by
    rw [← h, ← pow_mul, show 3 * ((Q - 1) / 3) = Q - 1 by decide +kernel]
    exact ZMod.pow_card_sub_one_eq_one hx
  have h2 := fq_pow 82 ((Q - 1) / 3) 21888242871839275220042445260109153167277707414472061641714758635765020556616
    (by decide +kernel) (by decide +kernel)
  rw [show ((82 : Nat) : Fq) = 82 by norm_num, h1] at h2
  revert h2
  decide +kernel

namespace Fq2

noncomputable instance : Field (Fq2 Fq) where
  inv a := of a.norm⁻¹ * a.conjugate
  exists_pair_ne := ⟨0, 1, by decide +kernel⟩
  mul_inv_cancel a h := by
    show a * (of a.norm⁻¹ * a.conjugate) = 1
    rw [mul_left_comm, mul_conjugate, ← map_mul, inv_mul_cancel₀ (norm_ne_zero neg_one_not_square h), map_one]
  inv_zero := by
    show of _ * conjugate 0 = 0
    have : conjugate (0 : Fq2 Fq) = 0 := by decide +kernel
    rw [this, mul_zero]
  nnqsmul := _
  nnqsmul_def _ _ := rfl
  qsmul := _
  qsmul_def _ _ := rfl

theorem inv_eq (a : Fq2 Fq) : a⁻¹ = of a.norm⁻¹ * a.conjugate := rfl

theorem invert_spec (a : Fq2 Fq) : a.invert = if a = 0 then none else some a⁻¹ := by
  rw [invert_eq]
  by_cases h : a = 0
  · rw [if_pos h, if_pos]
    rw [h]
    decide +kernel
  · rw [if_neg h, if_neg (norm_ne_zero neg_one_not_square h), inv_eq]

theorem xi_norm : (xi : Fq2 Fq).norm = 82 := by decide +kernel

theorem xi_not_cube (x : Fq2 Fq) : x ^ 3 ≠ xi := by
  intro h
  apply eightyTwo_not_cube x.norm
  rw [← xi_norm, ← h, show x ^ 3 = x * x * x by ring, norm_mul, norm_mul]
  ring

theorem xi_not_square (x : Fq2 Fq) : x ^ 2 ≠ xi := by
  intro h
  apply eightyTwo_not_square x.norm
  rw [← xi_norm, ← h, pow_two, pow_two, norm_mul]

end Fq2

namespace Fq6

open Fq2 (xi)

theorem adj_ne_zero {a : Fq6 Fq} (h : a ≠ 0) : a.adj ≠ 0 := by
  intro hb
  have h0 : a.c0 ^ 2 - xi * a.c1 * a.c2 = 0 := congrArg Fq6.c0 hb
  have h2 : a.c1 ^ 2 - a.c0 * a.c2 = 0 := congrArg Fq6.c2 hb
  by_cases hc : a.c2 = 0
  · rw [hc] at h0 h2
    have e0 : a.c0 = 0 := by simpa using h0
    have e1 : a.c1 = 0 := by simpa using h2
    exact h (Fq6.ext e0 e1 hc)
  · apply Fq2.xi_not_cube (a.c1 / a.c2)
    by_cases h1 : a.c1 = 0
    · rw [h1] at h0 h2
      have e0 : a.c0 = 0 := by simpa using h0
      have h1' : xi * a.c2 ^ 2 - a.c0 * a.c1 = 0 := congrArg Fq6.c1 hb
      rw [e0] at h1'
      have : (xi : Fq2 Fq) = 0 := by simpa [hc] using h1'
      exact absurd this (by decide +kernel)
    · have h1' : xi * a.c2 ^ 2 - a.c0 * a.c1 = 0 := congrArg Fq6.c1 hb
      field_simp
      linear_combination a.c1 * h2 - a.c2 * h1'

theorem adj_adj (a : Fq6 Fq) : a.adj.adj = of a.norm * a := by
  refine Fq6.ext ?_ ?_ ?_
  · rw [mul_c0]
    simp only [of_c0, of_c1, of_c2]
    dsimp only [adj, norm]
    ring
  · rw [mul_c1]
    simp only [of_c0, of_c1, of_c2]
    dsimp only [adj, norm]
    ring
  · rw [mul_c2]
    simp only [of_c0, of_c1, of_c2]
    dsimp only [adj, norm]
    ring

theorem norm_ne_zero {a : Fq6 Fq} (h : a ≠ 0) : a.norm ≠ 0 := by
  intro hn
  apply adj_ne_zero (adj_ne_zero h)
  rw [adj_adj, hn, map_zero, zero_mul]

noncomputable instance : Field (Fq6 Fq) where
  inv a := of a.norm⁻¹ * a.adj
  exists_pair_ne := ⟨0, 1, by decide +kernel⟩
  mul_inv_cancel a h := by
    show a * (of a.norm⁻¹ * a.adj) = 1
    rw [mul_left_comm, mul_adj, ← map_mul, inv_mul_cancel₀ (norm_ne_zero h), map_one]
  inv_zero := by
    show of _ * adj 0 = 0
    have : adj (0 : Fq6 Fq) = 0 := by refine Fq6.ext ?_ ?_ ?_ <;> simp [adj]
    rw [this, mul_zero]
  nnqsmul := _
  nnqsmul_def _ _ := rfl
  qsmul := _
  qsmul_def _ _ := rfl

theorem inv_eq (a : Fq6 Fq) : a⁻¹ = of a.norm⁻¹ * a.adj := rfl

theorem norm_zero : (0 : Fq6 Fq).norm = 0 := by simp [norm]

theorem invert_spec (a : Fq6 Fq) : a.invert = if a = 0 then none else some a⁻¹ := by
  rw [invert_eq, Fq2.invert_spec]
  by_cases h : a = 0
  · rw [if_pos h, if_pos]
    · rfl
    · rw [h, norm_zero]
  · rw [if_neg h, if_neg (norm_ne_zero h), inv_eq]
    rfl

theorem v_not_square (x : Fq6 Fq) : x ^ 2 ≠ v := by
  intro h
  apply Fq2.xi_not_square x.norm
  have e : (v : Fq6 Fq).norm = xi := by simp [norm, v]
  rw [← e, ← h, pow_two, pow_two, norm_mul]

end Fq6

namespace Fq12

open Fq6 (v)

theorem norm_ne_zero {a : Fq12 Fq} (h : a ≠ 0) : a.norm ≠ 0 := by
  intro hn
  unfold norm at hn
  by_cases h1 : a.c1 = 0
  · rw [h1] at hn
    have h0 : a.c0 = 0 := by simpa using hn
    exact h (Fq12.ext h0 h1)
  · refine Fq6.v_not_square (a.c0 / a.c1) ?_
    field_simp
    linear_combination hn

theorem conjugate_zero : conjugate (0 : Fq12 Fq) = 0 := by refine Fq12.ext ?_ ?_ <;> simp [conjugate]

noncomputable instance : Field (Fq12 Fq) where
  inv a := of a.norm⁻¹ * a.conjugate
  exists_pair_ne := ⟨0, 1, by decide +kernel⟩
  mul_inv_cancel a h := by
    show a * (of a.norm⁻¹ * a.conjugate) = 1
    rw [mul_left_comm, mul_conjugate, ← map_mul, inv_mul_cancel₀ (norm_ne_zero h), map_one]
  inv_zero := by
    show of _ * conjugate 0 = 0
    rw [conjugate_zero, mul_zero]
  nnqsmul := _
  nnqsmul_def _ _ := rfl
  qsmul := _
  qsmul_def _ _ := rfl

theorem inv_eq (a : Fq12 Fq) : a⁻¹ = of a.norm⁻¹ * a.conjugate := rfl

theorem invert_spec (a : Fq12 Fq) : a.invert = if a = 0 then none else some a⁻¹ := by
  rw [invert_eq, Fq6.invert_spec]
  by_cases h : a = 0
  · rw [if_pos h, if_pos]
    · rfl
    · rw [h]
      simp [norm]
  · rw [if_neg h, if_neg (norm_ne_zero h), inv_eq]
    rfl

end Fq12

/-! The number of elements. -/

def Fq2.equiv : Fq2 Fq ≃ Fq × Fq := ⟨fun a => (a.c0, a.c1), fun p => ⟨p.1, p.2⟩, fun _ => rfl, fun _ => rfl⟩

def Fq6.equiv : Fq6 Fq ≃ Fq2 Fq × Fq2 Fq × Fq2 Fq :=
  ⟨fun a => (a.c0, a.c1, a.c2), fun p => ⟨p.1, p.2.1, p.2.2⟩, fun _ => rfl, fun _ => rfl⟩

def Fq12.equiv : Fq12 Fq ≃ Fq6 Fq × Fq6 Fq := ⟨fun a => (a.c0, a.c1), fun p => ⟨p.1, p.2⟩, fun _ => rfl, fun _ => rfl⟩

instance : NeZero Q := ⟨Q_prime.ne_zero⟩

instance : Fintype (Fq2 Fq) := Fintype.ofEquiv _ Fq2.equiv.symm
instance : Fintype (Fq6 Fq) := Fintype.ofEquiv _ Fq6.equiv.symm
instance : Fintype (Fq12 Fq) := Fintype.ofEquiv _ Fq12.equiv.symm

theorem Fq2.card : Fintype.card (Fq2 Fq) = Q ^ 2 := by
  rw [Fintype.card_congr Fq2.equiv, Fintype.card_prod, ZMod.card, pow_two]

theorem Fq6.card : Fintype.card (Fq6 Fq) = Q ^ 6 := by
  rw [Fintype.card_congr Fq6.equiv, Fintype.card_prod, Fintype.card_prod, Fq2.card]
  ring

theorem Fq12.card : Fintype.card (Fq12 Fq) = Q ^ 12 := by
  rw [Fintype.card_congr Fq12.equiv, Fintype.card_prod, Fq6.card]
  ring

instance : CharP (Fq2 Fq) Q := charP_of_injective_ringHom (f := Fq2.of) (RingHom.injective _) Q
instance : CharP (Fq6 Fq) Q := charP_of_injective_ringHom (f := Fq6.of) (RingHom.injective _) Q
instance : CharP (Fq12 Fq) Q := charP_of_injective_ringHom (f := Fq12.of) (RingHom.injective _) Q

end Verif.Tower
