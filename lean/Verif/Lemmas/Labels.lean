import Verif.Lemmas.DomainLemmas

/-! The labels of cells in the permutation argument are distinct. -/

namespace Verif.Plonk

open Domain

/-- The odd part of the order of the multiplicative group. -/
def oddPart : Nat := (P - 1) / 2 ^ 28

/-- The prime factors of the odd part. -/
def oddFactors : List Nat := [3, 3, 13, 29, 983, 11003, 237073, 405928799, 1670836401704629,
  13818364434197438864469338081]

theorem oddFactors_prod : oddFactors.prod = oddPart := by decide +kernel

theorem oddFactors_prime : ∀ q ∈ oddFactors, q.Prime := by
  intro q hq
  unfold oddFactors at hq
  simp only [List.mem_cons, List.not_mem_nil, or_false] at hq
  rcases hq with rfl | rfl | rfl | rfl | rfl | rfl | rfl | rfl | rfl | rfl
  · norm_num
  · norm_num
  · norm_num
  · norm_num
  · norm_num
  · norm_num
  · norm_num
  · exact Pratt.prime_405928799
  · exact Pratt.prime_1670836401704629
  · exact Pratt.prime_13818364434197438864469338081

/-- The number behind `deltaFr`. -/
def deltaNat : Nat := 0x09226b6e22c6f0ca64ec26aad4c86e715b5f898e5e963f25870e56bbe533e9a2

theorem delta_cast : deltaFr = ((deltaNat : Nat) : Fr) := rfl

theorem oddFactors_check : ∀ q ∈ oddFactors, Pratt.powMod P 300 deltaNat (oddPart / q) 1 % P ≠ 1 := by
  decide +kernel

/-- The order of `DELTA`. -/
theorem delta_order : orderOf deltaFr = oddPart := by
  apply orderOf_eq_of_pow_and_pow_div_prime
  · decide +kernel
  · rw [delta_cast, pow_cast deltaNat oddPart 1 (by decide +kernel) (by decide +kernel), Nat.cast_one]
  · intro q hq hdvd he
    have hmem : q ∈ oddFactors := by
      rw [← oddFactors_prod, hq.prime.dvd_prod_iff] at hdvd
      obtain ⟨a, ha, hqa⟩ := hdvd
      exact ((Nat.prime_dvd_prime_iff_eq hq (oddFactors_prime a ha)).1 hqa) ▸ ha
    have hc := pow_cast deltaNat (oddPart / q) _
      (lt_of_le_of_lt (Nat.div_le_self _ _) (by decide +kernel)) rfl
    rw [← delta_cast, he] at hc
    rw [ZMod.natCast_mod, ← Nat.cast_one] at hc
    have h2 := (ZMod.natCast_eq_natCast_iff' _ _ _).1 hc
    rw [Nat.mod_eq_of_lt (show 1 < P by decide +kernel)] at h2
    exact oddFactors_check q hmem h2.symm

theorem delta_ne_zero : deltaFr ≠ 0 := by
  intro h
  have h1 := pow_orderOf_eq_one deltaFr
  rw [delta_order, h, zero_pow (by decide +kernel)] at h1
  exact zero_ne_one h1

theorem oddPart_coprime : Nat.Coprime oddPart (2 ^ 28) := by
  rw [Nat.coprime_pow_right_iff (by norm_num)]
  decide +kernel

/-- Labels of different cells differ, for up to `(P - 1) / 2^28` columns. -/
theorem labels_injective {w : Fr} {k : Nat} (hw : IsPrimitiveRoot w (2 ^ k)) (hk : k ≤ 28)
    {i i' j j' : Nat} (hi : i < oddPart) (hi' : i' < oddPart) (hj : j < 2 ^ k) (hj' : j' < 2 ^ k)
    (h : deltaFr ^ i * w ^ j = deltaFr ^ i' * w ^ j') : i = i' ∧ j = j' := by
  have hw28 : ∀ j : Nat, (w ^ j) ^ 2 ^ 28 = 1 := by
    intro j
    rw [← pow_mul, mul_comm, show (2 : Nat) ^ 28 = 2 ^ k * 2 ^ (28 - k) by rw [← pow_add]; congr 1; omega,
      pow_mul, pow_mul, hw.pow_eq_one, one_pow, one_pow]
  have key : ∀ {i i'}, i ≤ i' → i < oddPart → i' < oddPart →
      (deltaFr ^ i) ^ 2 ^ 28 = (deltaFr ^ i') ^ 2 ^ 28 → i = i' := by
    intro i i' hle h1 h2 he
    rw [show i' = i + (i' - i) by omega, pow_add, mul_pow] at he
    have he : (deltaFr ^ (i' - i)) ^ 2 ^ 28 = 1 := by
      have hne : (deltaFr ^ i) ^ 2 ^ 28 ≠ 0 := pow_ne_zero _ (pow_ne_zero _ delta_ne_zero)
      exact mul_left_cancel₀ hne (by rw [mul_one]; exact he.symm)
    rw [← pow_mul] at he
    have hdvd := orderOf_dvd_of_pow_eq_one he
    rw [delta_order] at hdvd
    have := oddPart_coprime.dvd_of_dvd_mul_right hdvd
    have := Nat.eq_zero_of_dvd_of_lt this (by omega)
    omega
  have hi0 : i = i' := by
    have he := congrArg (fun v => v ^ 2 ^ 28) h
    simp only [mul_pow, hw28, mul_one] at he
    rcases Nat.le_total i i' with hle | hle
    · exact key hle hi hi' he
    · exact (key hle hi' hi he.symm).symm
  subst hi0
  refine ⟨rfl, hw.pow_inj hj hj' ?_⟩
  exact mul_left_cancel₀ (pow_ne_zero _ delta_ne_zero) h

end Verif.Plonk
