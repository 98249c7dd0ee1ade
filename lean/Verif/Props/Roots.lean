import Verif.Lemmas.DomainLemmas
import Verif.Lemmas.Roots

/-! Property C94: square roots. -/

namespace Verif.Props

open Spec Tower

/-- C94, any finite field. Let the field have `2^S t + 1` elements with `t = 2 m + 1` odd, let the exponent be `m` and the
root of unity have order `2^S`. Then a root is found for every square, and nothing for other elements. -/
theorem C94_tonelli {F : Type} [Field F] [Fintype F] [DecidableEq F] (S m : Nat) (root : F) (e : Limbs) (hS : 1 ≤ S)
    (hcard : Fintype.card F = 2 ^ S * (2 * m + 1) + 1) (hroot : orderOf root = 2 ^ S) (he : e.Ok) (hm : e.val = m) (f : F) :
    (IsSquare f → ∃ x, sqrtTonelli S root e f = some x ∧ x ^ 2 = f) ∧ (¬ IsSquare f → sqrtTonelli S root e f = none) := by
  have hr : root ^ 2 ^ (S - 1) = -1 := by
    have h2 : root ^ 2 ^ (S - 1) * root ^ 2 ^ (S - 1) = 1 := by
      rw [← pow_add, ← two_mul, ← pow_succ', show S - 1 + 1 = S by omega, ← hroot, pow_orderOf_eq_one]
    refine (mul_self_eq_one_iff.1 h2).resolve_left fun h => ?_
    have := orderOf_dvd_of_pow_eq_one h
    rw [hroot] at this
    have := (Nat.pow_dvd_pow_iff_le_right (le_refl 2)).1 this
    omega
  constructor
  · rintro ⟨g, rfl⟩
    obtain ⟨x, h1, h2⟩ := sqrtTonelli_square hS hcard he hm hr g
    exact ⟨x, h1, by rw [sq, h2]⟩
  · intro h
    unfold sqrtTonelli
    dsimp only
    rw [if_neg fun h' => h ⟨_, h'.symm⟩]

/-- C94, the scalar field. -/
theorem C94_scalars (f : Fr) :
    (IsSquare f → ∃ x, frSqrt f = some x ∧ x ^ 2 = f) ∧ (¬ IsSquare f → frSqrt f = none) := by
  refine C94_tonelli twoAdicity 0x183227397098d014dc2822db40c0ac2e9419f4243cdcb848a1f0fac9f rootOfUnity _ (by decide) ?_ ?_
    ((limbs_ok_iff _).2 (by decide +kernel)) (by decide +kernel) f
  · rw [ZMod.card]
    decide +kernel
  · exact Domain.root_primitive.eq_orderOf.symm

/-- C94, the quadratic extension. -/
theorem C94_extension (a : Fq2 Fq) :
    (IsSquare a → ∃ y, Fq2.sqrt decoded a = some y ∧ y ^ 2 = a) ∧ (¬ IsSquare a → Fq2.sqrt decoded a = none) := by
  refine ⟨fun h => ?_, (sqrt2_spec a).2⟩
  obtain ⟨y, h1, h2⟩ := (sqrt2_spec a).1 h
  exact ⟨y, h1, by rw [sq, h2]⟩

/-- C94, the Legendre symbol in the quadratic extension. -/
theorem C94_legendre (a : Fq2 Fq) :
    (a.legendre = 0 ↔ a = 0) ∧ (a.legendre = 1 ↔ a ≠ 0 ∧ IsSquare a) ∧ (a.legendre = -1 ↔ ¬ IsSquare a) :=
  legendre2_spec a

/-- Roots of 4 and of 0, and none of 5 and of 7; 7 is the generator of the scalar field. -/
example : (∃ x, frSqrt 4 = some x ∧ x ^ 2 = 4) ∧ frSqrt 0 = some 0 ∧ frSqrt 5 = none ∧ ¬ IsSquare (7 : Fr) := by
  have h7 : frSqrt 7 = none := by decide +kernel
  refine ⟨(C94_scalars 4).1 ⟨2, by norm_num⟩, by decide +kernel, by decide +kernel, fun h => ?_⟩
  obtain ⟨x, hx, -⟩ := (C94_scalars 7).1 h
  rw [h7] at hx
  cases hx

/-- A field with 17 elements, where 13 is `8²` and 3 is no square; the root of unity has order 16. -/
example : (haveI : Fact (Nat.Prime 17) := ⟨by norm_num⟩; sqrtTonelli 4 (3 : ZMod 17) ⟨0, 0, 0, 0⟩ 13 = some 8 ∧
    sqrtTonelli 4 (3 : ZMod 17) ⟨0, 0, 0, 0⟩ 3 = none) := by decide +kernel

/-- Both ways to a root in the extension: of `-1` and of `u`; none of `9 + u`. -/
example : (Fq2.sqrt decoded (-1 : Fq2 Fq)).isSome ∧ (Fq2.sqrt decoded (⟨0, 2⟩ : Fq2 Fq)).isSome ∧
    Fq2.sqrt decoded (⟨9, 1⟩ : Fq2 Fq) = none ∧ (⟨9, 1⟩ : Fq2 Fq).legendre = -1 := by decide +kernel

#print axioms C94_tonelli
#print axioms C94_scalars
#print axioms C94_extension
#print axioms C94_legendre

end Verif.Props
