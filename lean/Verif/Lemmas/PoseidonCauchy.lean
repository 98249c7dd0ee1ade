import Verif.Lemmas.PoseidonPerm
import Mathlib.Algebra.Polynomial.Roots
import Mathlib.Algebra.Polynomial.BigOperators
import Mathlib.LinearAlgebra.Matrix.ToLinearEquiv

/-! Cauchy matrices. -/

namespace Verif.Pos

open Matrix Spec.Poseidon Polynomial

variable {F : Type} [Field F]

/-- A Cauchy matrix is not singular. -/
theorem cauchy_det {n : Nat} (xs ys : Fin n → F) (hx : Function.Injective xs) (hy : Function.Injective ys)
    (h : ∀ i j, xs i + ys j ≠ 0) : (Matrix.of fun i j => (xs i + ys j)⁻¹ : Matrix (Fin n) (Fin n) F).det ≠ 0 := by
  intro hdet
  obtain ⟨a, ha, hM⟩ := Matrix.exists_mulVec_eq_zero_iff.2 hdet
  apply ha
  have hprod : ∀ j, ∀ z : F, eval z (∏ l ∈ Finset.univ.erase j, (X + C (ys l))) = ∏ l ∈ Finset.univ.erase j, (z + ys l) := by
    intro j z
    rw [eval_prod]
    simp
  have hp0 : (∑ j, C (a j) * ∏ l ∈ Finset.univ.erase j, (X + C (ys l)) : F[X]) = 0 := by
    rcases Nat.eq_zero_or_pos n with rfl | hn
    · simp
    refine eq_zero_of_natDegree_lt_card_of_eval_eq_zero _ hx (fun i => ?_) ?_
    · rw [eval_finsetSum]
      have hrow : ∑ j, (xs i + ys j)⁻¹ * a j = 0 := congrFun hM i
      have hP : ∏ l, (xs i + ys l) ≠ 0 := Finset.prod_ne_zero_iff.2 fun l _ => h i l
      have e : ∀ j, eval (xs i) (C (a j) * ∏ l ∈ Finset.univ.erase j, (X + C (ys l))) =
          (∏ l, (xs i + ys l)) * ((xs i + ys j)⁻¹ * a j) := by
        intro j
        rw [eval_mul, eval_C, hprod, ← Finset.mul_prod_erase Finset.univ (fun l => xs i + ys l) (Finset.mem_univ j)]
        have := h i j
        field_simp
      simp only [e]
      rw [← Finset.mul_sum, hrow, mul_zero]
    · rw [Fintype.card_fin]
      refine lt_of_le_of_lt (natDegree_sum_le_of_forall_le (n := n - 1) _ _ fun j _ => ?_) (by omega)
      refine le_trans (natDegree_C_mul_le _ _) (le_trans (natDegree_prod_le _ _) ?_)
      refine le_trans (Finset.sum_le_card_nsmul _ _ 1 fun l _ => ?_) ?_
      · rw [natDegree_X_add_C]
      · rw [Finset.card_erase_of_mem (Finset.mem_univ j), Finset.card_univ, Fintype.card_fin]
        simp
  funext j
  have e := congrArg (eval (-ys j)) hp0
  rw [eval_finsetSum, eval_zero, Finset.sum_eq_single j] at e
  · rw [eval_mul, eval_C, hprod] at e
    rcases mul_eq_zero.1 e with e | e
    · exact e
    · exfalso
      obtain ⟨l, hl, e⟩ := Finset.prod_eq_zero_iff.1 e
      have : ys l = ys j := by linear_combination e
      exact (Finset.mem_erase.1 hl).1 (hy this)
  · intro k _ hk
    rw [eval_mul, hprod, Finset.prod_eq_zero (i := j), mul_zero]
    · exact Finset.mem_erase.2 ⟨fun h => hk h.symm, Finset.mem_univ _⟩
    · ring
  · intro h
    exact absurd (Finset.mem_univ j) h

theorem cauchy_minors {n : Nat} (xs ys : Fin n → F) (hx : Function.Injective xs) (hy : Function.Injective ys)
    (h : ∀ i j, xs i + ys j ≠ 0) :
    LeadingMinors (Matrix.of fun i j => (xs i + ys j)⁻¹ : Matrix (Fin n) (Fin n) F) := by
  intro k hk
  exact cauchy_det (fun i : Fin k => xs (Fin.castLE hk i)) (fun i : Fin k => ys (Fin.castLE hk i))
    (fun a b e => Fin.castLE_injective hk (hx e)) (fun a b e => Fin.castLE_injective hk (hy e)) (fun _ _ => h _ _)

end Verif.Pos
