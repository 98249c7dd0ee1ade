import Verif.Spec.Domain
import Mathlib.GroupTheory.OrderOfElement
import Mathlib.Tactic.LinearCombination
import Mathlib.Tactic.IntervalCases
import Mathlib.Tactic.Ring

/-!
The construction of evaluation domains.
-/

namespace Verif

namespace Domain

theorem squares_eq (m : Nat) : ∀ x : Fr, squares x m = x ^ 2 ^ m := by
  induction m with
  | zero => intro x; simp [squares]
  | succ m ih => intro x; rw [squares, ih, ← sq, ← pow_mul, ← pow_succ']

theorem pow_cast (a e r : Nat) (he : e < 2 ^ 300)
    (h : (Pratt.powMod P 300 a e 1) % P = r) : ((a : Nat) : Fr) ^ e = ((r : Nat) : Fr) := by
  have := Pratt.powMod_cast P 300 a e 1 he
  rw [Nat.cast_one, one_mul] at this
  rw [← this, ← h, ZMod.natCast_mod]

theorem root_pow_27 : rootOfUnity ^ 2 ^ 27 = -1 := by
  have h : rootOfUnity ^ 2 ^ 27 = ((P - 1 : Nat) : Fr) := by
    unfold rootOfUnity
    apply pow_cast
    · decide +kernel
    · decide +kernel
  rw [h, Nat.cast_sub (by decide +kernel), ZMod.natCast_self]
  simp

theorem neg_one_ne_one : (-1 : Fr) ≠ 1 := by
  intro h
  have h2 : ((2 : Nat) : Fr) = 0 := by
    have : (2 : Fr) = 0 := by linear_combination -h
    exact_mod_cast this
  rw [ZMod.natCast_eq_zero_iff] at h2
  exact absurd (Nat.le_of_dvd (by norm_num) h2) (by decide +kernel)

theorem root_primitive : IsPrimitiveRoot rootOfUnity (2 ^ 28) := by
  have h : orderOf rootOfUnity = 2 ^ (27 + 1) := by
    apply orderOf_eq_prime_pow
    · rw [root_pow_27]; exact neg_one_ne_one
    · rw [pow_succ, pow_mul, root_pow_27]; ring
  rw [show (2 : Nat) ^ 28 = orderOf rootOfUnity from h.symm]
  exact IsPrimitiveRoot.orderOf _

theorem zeta_pow_3 : zetaFr ^ 3 = 1 := by
  have h : zetaFr ^ 3 = ((1 : Nat) : Fr) := by
    unfold zetaFr
    apply pow_cast
    · decide +kernel
    · decide +kernel
  rw [h, Nat.cast_one]

theorem zeta_ne_one : zetaFr ≠ 1 := by
  have : zetaFr.val ≠ (1 : Fr).val := by
    unfold zetaFr
    decide +kernel
  intro h; exact this (by rw [h])

theorem zeta_ne_zero : zetaFr ≠ 0 := by
  intro h
  have := zeta_pow_3
  rw [h] at this; norm_num at this

/-- A power of two is no multiple of three. -/
theorem zeta_pow_ne (m : Nat) : zetaFr ^ 2 ^ m ≠ 1 := by
  have h3 : orderOf zetaFr = 3 := orderOf_eq_prime zeta_pow_3 zeta_ne_one
  intro h
  have := orderOf_dvd_of_pow_eq_one h
  rw [h3] at this
  have := Nat.Prime.dvd_of_dvd_pow Nat.prime_three this
  omega

theorem two_pow_ne (m : Nat) : ((2 ^ m : Nat) : Fr) ≠ 0 := by
  rw [Nat.cast_pow]
  apply pow_ne_zero
  intro h2
  rw [ZMod.natCast_eq_zero_iff] at h2
  exact absurd (Nat.le_of_dvd (by norm_num) h2) (by decide +kernel)

theorem extend_ok (checks : Bool) (limit d : Nat) : ∀ (fuel k : Nat),
    (∀ i < d, 2 ^ ((k + i) % 64) < limit) → limit ≤ 2 ^ ((k + d) % 64) →
    (checks = true → k + d < 64) → k + d < 2 ^ 32 → d < fuel →
    extend checks limit fuel k = .ok (k + d) := by
  induction d with
  | zero =>
    intro fuel k _ h2 hc _ hf
    obtain ⟨f, rfl⟩ : ∃ f, fuel = f + 1 := ⟨fuel - 1, by omega⟩
    rw [extend, shl64]
    have : (checks && decide (64 ≤ k)) = false := by
      cases checks
      · rfl
      · have := hc rfl; simp; omega
    rw [this]
    simp only [Nat.add_zero] at *
    show (if 2 ^ (k % 64) < limit then _ else _) = _
    rw [if_neg (by omega)]
  | succ d ih =>
    intro fuel k h1 h2 hc hk hf
    obtain ⟨f, rfl⟩ : ∃ f, fuel = f + 1 := ⟨fuel - 1, by omega⟩
    rw [extend, shl64]
    have hcc : (checks && decide (64 ≤ k)) = false := by
      cases checks
      · rfl
      · have := hc rfl; simp; omega
    rw [hcc]
    show (if 2 ^ (k % 64) < limit then _ else _) = _
    rw [if_pos (by simpa using h1 0 (by omega))]
    have hcc2 : (checks && decide (2 ^ 32 ≤ k + 1)) = false := by
      have : ¬ (2 ^ 32 ≤ k + 1) := by omega
      simp only [this, decide_false, Bool.and_false]
    rw [hcc2, Nat.mod_eq_of_lt (by omega)]
    show extend checks limit f (k + 1) = _
    rw [ih f (k + 1) (fun i hi => by
      have := h1 (i + 1) (by omega); rwa [show k + 1 + i = k + (i + 1) by ring])
      (by rwa [show k + 1 + d = k + (d + 1) by ring]) (fun h => by have := hc h; omega)
      (by omega) (by omega)]
    congr 1; ring

theorem extend_hang (limit : Nat) (h : ∀ e, 2 ^ (e % 64) < limit) : ∀ fuel k,
    extend false limit fuel k = .error .hang := by
  intro fuel
  induction fuel with
  | zero => intro k; rfl
  | succ f ih =>
    intro k
    rw [extend, shl64]
    show (if 2 ^ (k % 64) < limit then _ else _) = _
    rw [if_pos (h k)]
    exact ih _

/-- The loop over the powers ends when the order is reached. -/
theorem powersOf_ok (step orig : Fr) (m : Nat) (ho : orig ≠ 0)
    (hs : IsPrimitiveRoot step m) : ∀ d fuel i, i + d + 1 = m → d < fuel →
    powersOf step orig fuel (orig * step ^ i)
      = .ok ((List.range (d + 1)).map fun t => orig * step ^ (i + t)) := by
  intro d
  induction d with
  | zero =>
    intro fuel i hi hf
    obtain ⟨f, rfl⟩ : ∃ f, fuel = f + 1 := ⟨fuel - 1, by omega⟩
    rw [powersOf, if_pos]
    · simp
    · rw [mul_assoc, ← pow_succ, show i + 1 = m by omega, hs.pow_eq_one, mul_one]
  | succ d ih =>
    intro fuel i hi hf
    obtain ⟨f, rfl⟩ : ∃ f, fuel = f + 1 := ⟨fuel - 1, by omega⟩
    rw [powersOf, if_neg]
    · rw [mul_assoc, ← pow_succ, ih f (i + 1) (by omega) (by omega)]
      rw [List.range_succ_eq_map (n := d + 1)]
      simp only [Except.map, List.map_cons, List.map_map, Nat.add_zero]
      congr 2
      apply List.map_congr_left
      intro t _
      simp only [Function.comp]
      rw [show i + 1 + t = i + (t + 1) by ring]
    · intro h
      rw [mul_assoc, ← pow_succ] at h
      have h1 : step ^ (i + 1) = 1 := by
        have := mul_left_cancel₀ ho (h.trans (mul_one orig).symm)
        exact this
      have := Nat.le_of_dvd (by omega) ((hs.pow_eq_one_iff_dvd _).1 h1)
      omega

theorem powersOf_all (step orig : Fr) (m fuel : Nat) (hm : 0 < m) (ho : orig ≠ 0)
    (hs : IsPrimitiveRoot step m) (hf : m ≤ fuel) :
    powersOf step orig fuel orig = .ok ((List.range m).map fun t => orig * step ^ t) := by
  have := powersOf_ok step orig m ho hs (m - 1) fuel 0 (by omega) (by omega)
  rw [pow_zero, mul_one] at this
  rw [this, show m - 1 + 1 = m by omega]
  simp

/-- A power of two of a root of order a power of two. -/
theorem primitive_two_pow {x : Fr} {s : Nat} (h : IsPrimitiveRoot x (2 ^ s)) (m : Nat) :
    IsPrimitiveRoot (x ^ 2 ^ m) (2 ^ (s - m)) := by
  rcases Nat.le_total m s with hm | hm
  · apply h.pow (by positivity)
    rw [← pow_add]; congr 1; omega
  · rw [Nat.sub_eq_zero_of_le hm, pow_zero]
    have : x ^ 2 ^ m = 1 := by
      rw [h.pow_eq_one_iff_dvd]; exact pow_dvd_pow 2 hm
    rw [this]; exact IsPrimitiveRoot.one

/-- The two loops once `extended_k` is known. -/
theorem new_eq (checks : Bool) (fuel j k ek n limit : Nat) (hj : 0 < j) (hj2 : j < 2 ^ 32)
    (hn : shl64 checks k = .ok n) (hlim : mul64 checks n (j - 1) = .ok limit)
    (hext : extend checks limit fuel k = .ok ek) :
    new checks fuel j k =
      (powersOf ((squares rootOfUnity (twoAdicity - ek)) ^ n) (zetaFr ^ n) fuel (zetaFr ^ n)
        >>= fun ts => shl64 checks (ek - k) >>= fun len =>
        if ts.length ≠ len then .error .assert else
        shl64 checks k >>= fun n' => shl64 checks ek >>= fun en =>
        .ok { n := n, k := k, extendedK := ek
              omega := squares (squares rootOfUnity (twoAdicity - ek)) (ek - k)
              omegaInv := (squares (squares rootOfUnity (twoAdicity - ek)) (ek - k))⁻¹
              extendedOmega := squares rootOfUnity (twoAdicity - ek)
              extendedOmegaInv := (squares rootOfUnity (twoAdicity - ek))⁻¹
              gCoset := zetaFr, gCosetInv := zetaFr * zetaFr, quotientPolyDegree := j - 1
              ifftDivisor := ((n' : Nat) : Fr)⁻¹, extendedIfftDivisor := ((en : Nat) : Fr)⁻¹
              tEvaluations := ts.map fun t => (t - 1)⁻¹
              barycentricWeight := ((n : Nat) : Fr)⁻¹ }) := by
  have hq : (j + 2 ^ 32 - 1) % 2 ^ 32 = j - 1 := by omega
  unfold new
  have hc : (checks && decide (j = 0)) = false := by
    have : ¬ (j = 0) := by omega
    simp only [this, decide_false, Bool.and_false]
  rw [hc, hn, hq]
  show (mul64 checks n (j - 1) >>= _) = _
  rw [hlim]
  show (extend checks limit fuel k >>= _) = _
  rw [hext]
  rfl

/-- The domain that `new` builds when the extended domain exists. -/
theorem new_domain (checks : Bool) (fuel j k ek : Nat) (hj : 0 < j) (hj2 : j < 2 ^ 32)
    (hle : IsLeast {e | k ≤ e ∧ 2 ^ k * (j - 1) ≤ 2 ^ e} ek) (hs : ek ≤ 28)
    (hf : 32 + 2 ^ (ek - k) ≤ fuel) :
    ∃ d, new checks fuel j k = .ok d ∧ IsDomain d j k ∧
      d.omega = rootOfUnity ^ 2 ^ (28 - k) := by
  obtain ⟨⟨hk, hlim⟩, hmin⟩ := hle
  have hpos : 0 < 2 ^ (ek - k) := by positivity
  have hk64 : k % 64 = k := Nat.mod_eq_of_lt (by omega)
  have hek64 : ek % 64 = ek := Nat.mod_eq_of_lt (by omega)
  have hshl : ∀ x, x ≤ 28 → shl64 checks x = .ok (2 ^ x) := by
    intro x hx
    have : (checks && decide (64 ≤ x)) = false := by
      have : ¬ (64 ≤ x) := by omega
      simp only [this, decide_false, Bool.and_false]
    rw [shl64, this, Nat.mod_eq_of_lt (by omega)]; rfl
  have h28 : 2 ^ ek ≤ 2 ^ 28 := Nat.pow_le_pow_right (by norm_num) hs
  have hsmall : 2 ^ k * (j - 1) < 2 ^ 64 := by
    have : (2 : Nat) ^ 28 < 2 ^ 64 := by norm_num
    omega
  have hmul : mul64 checks (2 ^ k) (j - 1) = .ok (2 ^ k * (j - 1)) := by
    have : (checks && decide (2 ^ 64 ≤ 2 ^ k * (j - 1))) = false := by
      have : ¬ (2 ^ 64 ≤ 2 ^ k * (j - 1)) := by omega
      simp only [this, decide_false, Bool.and_false]
    rw [mul64, this, Nat.mod_eq_of_lt hsmall]; rfl
  have hext : extend checks (2 ^ k * (j - 1)) fuel k = .ok ek := by
    have := extend_ok checks (2 ^ k * (j - 1)) (ek - k) fuel k
      (fun i hi => by
        rw [Nat.mod_eq_of_lt (by omega)]
        by_contra hc
        have := hmin (show k + i ∈ _ from ⟨by omega, by omega⟩)
        omega)
      (by rw [show k + (ek - k) = ek by omega, hek64]; exact hlim)
      (fun _ => by omega) (by omega) (by omega)
    rw [this]; congr 1; omega
  rw [new_eq checks fuel j k ek _ _ hj hj2 (hshl k (by omega)) hmul hext]
  simp only [squares_eq]
  have hE : IsPrimitiveRoot (rootOfUnity ^ 2 ^ (twoAdicity - ek)) (2 ^ ek) := by
    have := primitive_two_pow root_primitive (twoAdicity - ek)
    rwa [show 28 - (twoAdicity - ek) = ek by simp only [twoAdicity]; omega] at this
  have hroot : (rootOfUnity ^ 2 ^ (twoAdicity - ek)) ^ 2 ^ (ek - k) = rootOfUnity ^ 2 ^ (28 - k) := by
    rw [← pow_mul, ← pow_add]
    congr 2
    simp only [twoAdicity]; omega
  generalize rootOfUnity ^ 2 ^ (twoAdicity - ek) = w at hE hroot
  have hO : IsPrimitiveRoot (w ^ 2 ^ (ek - k)) (2 ^ k) := by
    have := primitive_two_pow hE (ek - k)
    rwa [show ek - (ek - k) = k by omega] at this
  have hstep : IsPrimitiveRoot (w ^ 2 ^ k) (2 ^ (ek - k)) := primitive_two_pow hE k
  have hz : zetaFr ^ 2 ^ k ≠ 0 := pow_ne_zero _ zeta_ne_zero
  rw [powersOf_all _ _ _ fuel (by positivity) hz hstep (by omega)]
  have hw0 : w ≠ 0 := hE.ne_zero (by positivity)
  have hcoset : ∀ i : Nat, (zetaFr * w ^ i) ^ 2 ^ k ≠ 1 := by
    intro i hi
    have h2 : ((zetaFr * w ^ i) ^ 2 ^ k) ^ 2 ^ ek = 1 := by rw [hi, one_pow]
    rw [← pow_mul, mul_pow, ← pow_mul w, show i * (2 ^ k * 2 ^ ek) = 2 ^ ek * (i * 2 ^ k) by ring,
      pow_mul w, hE.pow_eq_one, one_pow, mul_one, ← pow_add] at h2
    exact zeta_pow_ne _ h2
  have hlen : ((List.range (2 ^ (ek - k))).map fun t => zetaFr ^ 2 ^ k * (w ^ 2 ^ k) ^ t).length
      = 2 ^ (ek - k) := by rw [List.length_map, List.length_range]
  refine ⟨?_, ?_, ?_, ?_⟩
  rotate_left
  · show (shl64 checks (ek - k) >>= _) = _
    rw [hshl _ (by omega)]
    show (if _ then _ else _) = _
    rw [if_neg (by rw [hlen]; simp), hshl k (by omega)]
    show (shl64 checks ek >>= _) = _
    rw [hshl ek hs]
    rfl
  · constructor
    · rfl
    · rfl
    · rfl
    · exact ⟨⟨hk, hlim⟩, hmin⟩
    · exact hO
    · exact hE
    · rfl
    · exact mul_inv_cancel₀ (hO.ne_zero (by positivity))
    · exact mul_inv_cancel₀ hw0
    · show zetaFr * (zetaFr * zetaFr) = 1
      rw [← zeta_pow_3]; ring
    · exact zeta_pow_3
    · exact hcoset
    · rw [List.length_map, hlen]
    · intro i hi
      simp only [List.getElem_map, List.getElem_range]
      rw [mul_pow, ← pow_mul w i, mul_comm i, pow_mul w]
      apply inv_mul_cancel₀
      intro h
      have := hcoset i
      rw [mul_pow, ← pow_mul w i, mul_comm i, pow_mul w] at this
      exact this (sub_eq_zero.1 h)
    · exact inv_mul_cancel₀ (two_pow_ne _)
    · exact inv_mul_cancel₀ (two_pow_ne _)
    · exact inv_mul_cancel₀ (two_pow_ne _)
  · exact hroot

/-- The assertion fails when the powers of the step repeat too early or too late. -/
theorem new_assert (fuel j k ek n limit s : Nat) (hj : 0 < j) (hj2 : j < 2 ^ 32)
    (hn : shl64 false k = .ok n) (hlim : mul64 false n (j - 1) = .ok limit)
    (hext : extend false limit fuel k = .ok ek) (hlt : ek - k < 64)
    (hstep : IsPrimitiveRoot ((squares rootOfUnity (twoAdicity - ek)) ^ n) (2 ^ s))
    (hs : s ≠ ek - k) (hf : 2 ^ s ≤ fuel) :
    new false fuel j k = .error .assert := by
  rw [new_eq false fuel j k ek _ _ hj hj2 hn hlim hext,
    powersOf_all _ _ _ fuel (by positivity) (pow_ne_zero _ zeta_ne_zero) hstep hf]
  have hl : shl64 false (ek - k) = .ok (2 ^ (ek - k)) := by
    rw [shl64, Nat.mod_eq_of_lt hlt]; rfl
  rw [hl]
  simp only [bind, Except.bind]
  rw [if_pos]
  rw [List.length_map, List.length_range]
  intro h
  exact hs (Nat.pow_right_injective le_rfl h)

end Domain

end Verif
