import Verif.Lemmas.Pow5Digest
import Verif.Lemmas.PoseidonCauchy
import Mathlib.LinearAlgebra.Lagrange
import Mathlib.LinearAlgebra.Matrix.NonsingularInverse

/-! The inverse of a Cauchy matrix. -/

namespace Verif.Lemmas.Pow5

open Verif.Gadget Polynomial

variable {F : Type} [Field F] {n : Nat}

theorem lagrangeAt_prod (xs : Fin n → F) (j : Fin n) (x : F) :
    lagrangeAt xs j x = ∏ m, if m = j then 1 else (x - xs m) * (xs j - xs m)⁻¹ := by
  unfold lagrangeAt
  rw [Fin.prod_univ_def, List.prod_eq_foldl, List.foldl_map]
  congr 1
  funext acc m
  split
  · rw [mul_one]
  · rw [mul_assoc]

theorem lagrangeAt_eval (xs : Fin n → F) (j : Fin n) (x : F) :
    lagrangeAt xs j x = (Lagrange.basis Finset.univ xs j).eval x := by
  rw [lagrangeAt_prod, Lagrange.basis, eval_prod, ← Finset.mul_prod_erase _ _ (Finset.mem_univ j), if_pos rfl, one_mul]
  refine Finset.prod_congr rfl fun m hm => ?_
  rw [if_neg (Finset.ne_of_mem_erase hm)]
  simp [Lagrange.basisDivisor, mul_comm]

/-- A polynomial of low degree is the sum of its values times the Lagrange polynomials. -/
theorem lagrange_sum {xs : Fin n → F} (hx : Function.Injective xs) (f : F[X]) (hf : f.degree < n) (x : F) :
    ∑ j, f.eval (xs j) * lagrangeAt xs j x = f.eval x := by
  have h := Lagrange.eq_interpolate (s := Finset.univ) (v := xs) (f := f) (hx.injOn) (by simpa using hf)
  conv_rhs => rw [h, Lagrange.interpolate_apply, eval_finsetSum]
  refine Finset.sum_congr rfl fun j _ => ?_
  rw [eval_mul, eval_C, lagrangeAt_eval]

theorem cauchy_inverse {xs zs : Fin n → F} (hx : Function.Injective xs) (hz : Function.Injective zs)
    (h : ∀ i j, xs i ≠ zs j) (i k : Fin n) :
    ∑ j, (xs i - zs j)⁻¹ * ((xs k - zs j) * lagrangeAt xs k (zs j) * lagrangeAt zs j (xs k)) = if i = k then 1 else 0 := by
  by_cases hik : i = k
  · subst hik
    rw [if_pos rfl]
    have hd : (Lagrange.basis Finset.univ xs i).degree < n := by
      rw [Lagrange.degree_basis hx.injOn (Finset.mem_univ i)]
      have := i.isLt
      simp only [Finset.card_univ, Fintype.card_fin, Nat.cast_lt]
      omega
    have := lagrange_sum hz (Lagrange.basis Finset.univ xs i) hd (xs i)
    rw [Lagrange.eval_basis_self hx.injOn (Finset.mem_univ i)] at this
    rw [← this]
    refine Finset.sum_congr rfl fun j _ => ?_
    rw [lagrangeAt_eval xs]
    have := sub_ne_zero.2 (h i j)
    field_simp
  · rw [if_neg hik]
    let g : F[X] := C ((xs k - xs i)⁻¹) * ∏ m ∈ (Finset.univ.erase k).erase i, Lagrange.basisDivisor (xs k) (xs m)
    have hmem : i ∈ Finset.univ.erase k := Finset.mem_erase.2 ⟨hik, Finset.mem_univ i⟩
    have hb : Lagrange.basis Finset.univ xs k = (X - C (xs i)) * g := by
      rw [Lagrange.basis, ← Finset.mul_prod_erase _ _ hmem]
      show C _ * (X - C (xs i)) * _ = _
      simp only [g]
      ring
    have hg : ((X - C (xs k)) * g).degree < (n : WithBot ℕ) := by
      have h1 : (Lagrange.basis Finset.univ xs k).degree < n := by
        rw [Lagrange.degree_basis hx.injOn (Finset.mem_univ k)]
        have := i.isLt
        simp only [Finset.card_univ, Fintype.card_fin, Nat.cast_lt]
        omega
      rw [hb, degree_mul, degree_X_sub_C] at h1
      rwa [degree_mul, degree_X_sub_C]
    have := lagrange_sum hz _ hg (xs k)
    rw [eval_mul, eval_sub, eval_X, eval_C, sub_self, zero_mul] at this
    rw [← this]
    refine Finset.sum_congr rfl fun j _ => ?_
    rw [lagrangeAt_eval xs, hb]
    simp only [eval_mul, eval_sub, eval_X, eval_C]
    have hne := sub_ne_zero.2 (h i j)
    field_simp
    ring

theorem mdsOf_inverse [DecidableEq F] {xs ys : Fin n → F} (hx : Function.Injective xs) (hy : Function.Injective ys)
    {m m' : Fin n → Fin n → F} (h : mdsOf xs ys = .ok (m, m')) :
    Matrix.of m * Matrix.of m' = 1 ∧ Matrix.of m' * Matrix.of m = 1 := by
  unfold mdsOf at h
  obtain ⟨_, h1, h2⟩ := Verif.Lemmas.Gadget.bind_ok h
  simp only [pure, Except.pure, Except.ok.injEq, Prod.mk.injEq] at h2
  obtain ⟨rfl, rfl⟩ := h2
  have h0 : ∀ i j, xs i + ys j ≠ 0 := by
    by_contra hc
    unfold assert at h1
    rw [if_neg (by simpa using hc)] at h1
    cases h1
  have : Matrix.of (fun i j => (xs i + ys j)⁻¹) * Matrix.of (fun i j => (xs j - - ys i) * lagrangeAt xs j (- ys i) *
      lagrangeAt (fun k => - ys k) i (xs j)) = (1 : Matrix (Fin n) (Fin n) F) := by
    ext i k
    rw [Matrix.mul_apply, Matrix.one_apply]
    have := cauchy_inverse (xs := xs) (zs := fun k => - ys k) hx (fun a b hab => hy (neg_injective hab)) (fun i j he => h0 i j (by
      rw [he]; simp)) i k
    simpa using this
  exact ⟨this, mul_eq_one_comm.1 this⟩

end Verif.Lemmas.Pow5
