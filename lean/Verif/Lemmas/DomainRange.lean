import Verif.Lemmas.DomainLemmas

/-!
What becomes of every 32-bit `k` when a domain for constraints of degree 11 is built without overflow
checks.
-/

namespace Verif

namespace Domain

theorem shl_false (k : Nat) : shl64 false k = .ok (2 ^ (k % 64)) := rfl

theorem mul_false (a b : Nat) : mul64 false a b = .ok (a * b % 2 ^ 64) := rfl

/-- The root with a large shift. -/
theorem squares_zero (ek : Nat) (h : 28 ≤ ek) : squares rootOfUnity (twoAdicity - ek) = rootOfUnity := by
  rw [show twoAdicity - ek = 0 by simp only [twoAdicity]; omega]; rfl

theorem extend_low (k fuel : Nat) (hk : k < 2 ^ 32) (hr : k % 64 ≤ 59) (hf : 4 < fuel) :
    extend false (2 ^ (k % 64) * 10) fuel k = .ok (k + 4) := by
  have hpos : 0 < 2 ^ (k % 64) := by positivity
  apply extend_ok
  · intro i hi
    rw [show (k + i) % 64 = k % 64 + i by omega, pow_add]
    have : 2 ^ i ≤ 8 := by
      have : 2 ^ i ≤ 2 ^ 3 := Nat.pow_le_pow_right (by norm_num) (by omega)
      simpa using this
    calc 2 ^ (k % 64) * 2 ^ i ≤ 2 ^ (k % 64) * 8 := Nat.mul_le_mul_left _ this
      _ < 2 ^ (k % 64) * 10 := by omega
  · rw [show (k + 4) % 64 = k % 64 + 4 by omega, pow_add]
    omega
  · intro h; exact absurd h (by decide)
  · omega
  · exact hf

theorem limit_low (r : Nat) (hr : r ≤ 59) : 2 ^ r * 10 < 2 ^ 64 := by
  have : 2 ^ r ≤ 2 ^ 59 := Nat.pow_le_pow_right (by norm_num) hr
  have e : (2 : Nat) ^ 64 = 2 ^ 59 * 32 := by norm_num
  have hpos : 0 < (2 : Nat) ^ 59 := by positivity
  omega

theorem new_low (k fuel : Nat) (hk : k < 2 ^ 32) (h24 : 24 < k) (hr : k % 64 ≤ 59)
    (hr24 : k % 64 ≠ 24) (hf : 2 ^ 28 + 64 ≤ fuel) : new false fuel 11 k = .error .assert := by
  have hlim : mul64 false (2 ^ (k % 64)) (11 - 1) = .ok (2 ^ (k % 64) * 10) := by
    rw [mul_false, Nat.mod_eq_of_lt (limit_low _ hr)]
  have h28 : 28 ≤ k + 4 := by omega
  refine new_assert fuel 11 k (k + 4) _ _ (28 - k % 64) (by norm_num) (by norm_num)
    (shl_false k) hlim (extend_low k fuel hk hr (by omega)) (by omega) ?_ (by omega) ?_
  · rw [squares_zero _ h28]
    exact primitive_two_pow root_primitive (k % 64)
  · have : 2 ^ (28 - k % 64) ≤ 2 ^ 28 := Nat.pow_le_pow_right (by norm_num) (by omega)
    omega

theorem new_61 (k fuel : Nat) (hk : k < 2 ^ 32) (hr : k % 64 = 61) (hf : 2 ^ 28 + 64 ≤ fuel) :
    new false fuel 11 k = .error .assert := by
  have hlim : mul64 false (2 ^ (k % 64)) (11 - 1) = .ok (2 ^ 62) := by
    rw [mul_false, hr]; rfl
  have hext : extend false (2 ^ 62) fuel k = .ok (k + 1) := by
    apply extend_ok
    · intro i hi
      rw [show (k + i) % 64 = 61 by omega]; norm_num
    · rw [show (k + 1) % 64 = 62 by omega]
    · intro h; exact absurd h (by decide)
    · omega
    · omega
  refine new_assert fuel 11 k (k + 1) _ _ 0 (by norm_num) (by norm_num)
    (shl_false k) hlim hext (by omega) ?_ (by omega) (by rw [pow_zero]; omega)
  rw [squares_zero _ (by omega), hr]
  have := primitive_two_pow root_primitive 61
  rwa [show 28 - 61 = 0 by rfl] at this

theorem new_62 (k fuel : Nat) (hk : k < 2 ^ 32) (hr : k % 64 = 62) (hf : 2 ^ 28 + 64 ≤ fuel) :
    new false fuel 11 k = .error .assert := by
  have hlim : mul64 false (2 ^ (k % 64)) (11 - 1) = .ok (2 ^ 63) := by
    rw [mul_false, hr]; rfl
  have hext : extend false (2 ^ 63) fuel k = .ok (k + 1) := by
    apply extend_ok
    · intro i hi
      rw [show (k + i) % 64 = 62 by omega]; norm_num
    · rw [show (k + 1) % 64 = 63 by omega]
    · intro h; exact absurd h (by decide)
    · omega
    · omega
  refine new_assert fuel 11 k (k + 1) _ _ 0 (by norm_num) (by norm_num)
    (shl_false k) hlim hext (by omega) ?_ (by omega) (by rw [pow_zero]; omega)
  rw [squares_zero _ (by omega), hr]
  have := primitive_two_pow root_primitive 62
  rwa [show 28 - 62 = 0 by rfl] at this

theorem new_60 (k fuel : Nat) (hr : k % 64 = 60) : new false fuel 11 k = .error .hang := by
  have hlim : mul64 false (2 ^ (k % 64)) 10 = .ok (10 * 2 ^ 60) := by
    rw [mul_false, hr]; rfl
  have hq : ((11 : Nat) + 2 ^ 32 - 1) % 2 ^ 32 = 10 := by norm_num
  have hext : ∀ e, 2 ^ (e % 64) < 10 * 2 ^ 60 := by
    intro e
    have : 2 ^ (e % 64) ≤ 2 ^ 63 := Nat.pow_le_pow_right (by norm_num) (by omega)
    have e2 : (2 : Nat) ^ 63 = 8 * 2 ^ 60 := by norm_num
    have hpos : 0 < (2 : Nat) ^ 60 := by positivity
    omega
  unfold new
  rw [shl_false, hq, if_neg (by decide)]
  simp only [bind, Except.bind]
  rw [hlim]
  simp only
  rw [extend_hang _ hext]

theorem new_63 (k fuel : Nat) (hk : k < 2 ^ 32) (hr : k % 64 = 63) (hf : 64 ≤ fuel) :
    ∃ d, new false fuel 11 k = .ok d ∧ d.n = 2 ^ 63 ∧ d.extendedK = k ∧ d.k = k := by
  have hlim : mul64 false (2 ^ (k % 64)) (11 - 1) = .ok 0 := by
    rw [mul_false, hr]; rfl
  have hext : extend false 0 fuel k = .ok (k + 0) := by
    apply extend_ok
    · intro i hi; omega
    · exact Nat.zero_le _
    · intro h; exact absurd h (by decide)
    · omega
    · omega
  have hprim : IsPrimitiveRoot ((squares rootOfUnity (twoAdicity - (k + 0))) ^ 2 ^ (k % 64)) 1 := by
    rw [squares_zero _ (by omega), hr]
    have := primitive_two_pow root_primitive 63
    rwa [show 28 - 63 = 0 by rfl, pow_zero] at this
  rw [new_eq false fuel 11 k _ _ _ (by norm_num) (by norm_num) (shl_false k) hlim hext,
    powersOf_all _ _ _ fuel (by norm_num) (pow_ne_zero _ zeta_ne_zero) hprim (by omega)]
  have hz : shl64 false (k + 0 - k) = .ok 1 := by
    rw [shl_false, show k + 0 - k = 0 by omega]; rfl
  refine ⟨?_, ?_, ?_, ?_, ?_⟩
  rotate_left
  · rw [hz]
    rfl
  · show 2 ^ (k % 64) = 2 ^ 63
    rw [hr]
  · rfl
  · rfl

theorem new_24 (k fuel : Nat) (hk : k < 2 ^ 32) (h64 : 64 ≤ k) (hr : k % 64 = 24) (hf : 64 ≤ fuel) :
    ∃ d, new false fuel 11 k = .ok d ∧ d.n = 2 ^ 24 ∧ d.extendedK = k + 4 ∧ d.k = k := by
  have hlim : mul64 false (2 ^ (k % 64)) (11 - 1) = .ok (2 ^ (k % 64) * 10) := by
    rw [mul_false, Nat.mod_eq_of_lt (limit_low _ (by omega))]
  have hprim : IsPrimitiveRoot ((squares rootOfUnity (twoAdicity - (k + 4))) ^ 2 ^ (k % 64)) 16 := by
    rw [squares_zero _ (by omega), hr]
    have := primitive_two_pow root_primitive 24
    rwa [show 28 - 24 = 4 by rfl] at this
  rw [new_eq false fuel 11 k _ _ _ (by norm_num) (by norm_num) (shl_false k) hlim
      (extend_low k fuel hk (by omega) (by omega)),
    powersOf_all _ _ _ fuel (by norm_num) (pow_ne_zero _ zeta_ne_zero) hprim (by omega)]
  have hz : shl64 false (k + 4 - k) = .ok 16 := by
    rw [shl_false, show k + 4 - k = 4 by omega]; rfl
  refine ⟨?_, ?_, ?_, ?_, ?_⟩
  rotate_left
  · rw [hz]
    rfl
  · show 2 ^ (k % 64) = 2 ^ 24
    rw [hr]
  · rfl
  · rfl

theorem least_11 (k : Nat) : IsLeast {e | k ≤ e ∧ 2 ^ k * (11 - 1) ≤ 2 ^ e} (k + 4) := by
  have hpos : 0 < 2 ^ k := by positivity
  refine ⟨⟨by omega, by rw [pow_add]; omega⟩, ?_⟩
  rintro e ⟨h1, h2⟩
  by_contra hc
  have : 2 ^ e ≤ 2 ^ (k + 3) := Nat.pow_le_pow_right (by norm_num) (by omega)
  rw [pow_add] at this
  omega

end Domain

end Verif
