import Verif.Lemmas.FftLemmas
import Verif.Lemmas.DomainLemmas
import Mathlib.Algebra.Field.GeomSum
import Mathlib.FieldTheory.Finite.Basic

/-!
Moving polynomials between their forms.
-/

set_option linter.unusedSectionVars false

namespace Verif

open Finset

variable {M : Type} [AddCommGroup M] [Module Fr M]

theorem polyAt_eq (c : List M) (x : Fr) :
    polyAt c x = ∑ i ∈ range c.length, x ^ i • c.getD i 0 := by
  rw [polyAt, ← Fin.sum_univ_eq_sum_range (fun i => x ^ i • c.getD i 0)]
  apply sum_congr rfl
  intro i _
  simp

theorem polyAt_cons (a : M) (c : List M) (x : Fr) : polyAt (a :: c) x = a + x • polyAt c x := by
  rw [polyAt_eq, polyAt_eq, List.length_cons, sum_range_succ', smul_sum]
  simp only [pow_zero, one_smul, List.getD_cons_zero, List.getD_cons_succ]
  rw [add_comm]
  congr 1
  apply sum_congr rfl
  intro i _
  rw [smul_smul, pow_succ']

theorem polyAt_nil (x : Fr) : polyAt ([] : List M) x = 0 := by
  rw [polyAt_eq]; simp

/-- Orthogonality of the powers of a root of unity. -/
theorem orthogonal {w wi : Fr} {n : Nat} (hw : IsPrimitiveRoot w n) (hi : w * wi = 1)
    (a b : Nat) (ha : a < n) (hb : b < n) :
    ∑ i ∈ range n, w ^ (i * a) * wi ^ (i * b) = if a = b then (n : Fr) else 0 := by
  have hx : ∀ i, w ^ (i * a) * wi ^ (i * b) = (w ^ a * wi ^ b) ^ i := by
    intro i; rw [mul_pow, ← pow_mul, ← pow_mul, mul_comm i, mul_comm i]
  simp only [hx]
  split
  · next h =>
    subst h
    rw [← mul_pow, hi, one_pow]; simp
  · next h =>
    have hwi : wi ^ n = 1 := by
      have : (w * wi) ^ n = 1 := by rw [hi, one_pow]
      rwa [mul_pow, hw.pow_eq_one, one_mul] at this
    have hpow : (w ^ a * wi ^ b) ^ n = 1 := by
      rw [mul_pow, ← pow_mul, ← pow_mul, mul_comm a, mul_comm b, pow_mul, pow_mul,
        hw.pow_eq_one, hwi, one_pow, one_pow, one_mul]
    have hne : w ^ a * wi ^ b ≠ 1 := by
      intro hc
      apply h
      apply hw.pow_inj ha hb
      calc w ^ a = w ^ a * wi ^ b * w ^ b := by
              rw [mul_assoc, ← mul_pow, mul_comm wi, hi, one_pow, mul_one]
        _ = w ^ b := by rw [hc, one_mul]
    have := geom_sum_mul (w ^ a * wi ^ b) n
    rw [hpow, sub_self] at this
    rcases mul_eq_zero.1 this with h0 | h0
    · exact h0
    · exact absurd (sub_eq_zero.1 h0) hne

/-- The inverse transform of a transform. -/
theorem inverse_dft {w wi div : Fr} {n : Nat} (hw : IsPrimitiveRoot w n) (hi : w * wi = 1)
    (hd : div * (n : Fr) = 1) (c : Nat → M) (b : Nat) (hb : b < n) :
    div • ∑ i ∈ range n, wi ^ (i * b) • ∑ a ∈ range n, w ^ (a * i) • c a = c b := by
  simp only [smul_sum, smul_smul]
  rw [sum_comm]
  have : ∀ a ∈ range n, ∑ i ∈ range n, (div * (wi ^ (i * b) * w ^ (a * i))) • c a
      = if a = b then c a else 0 := by
    intro a ha
    rw [← sum_smul, ← mul_sum]
    have h := orthogonal hw hi a b (mem_range.1 ha) hb
    have h' : ∑ i ∈ range n, wi ^ (i * b) * w ^ (a * i)
        = ∑ i ∈ range n, w ^ (i * a) * wi ^ (i * b) := by
      apply sum_congr rfl; intro i _; rw [mul_comm, mul_comm a]
    rw [h', h]
    split
    · rw [hd, one_smul]
    · rw [mul_zero, zero_smul]
  rw [sum_congr rfl this, sum_ite_eq' (range n) b c]
  simp [hb]

theorem primitive_half {w : Fr} {l : Nat} (hw : IsPrimitiveRoot w (2 ^ l)) (hl : 0 < l) :
    w ^ 2 ^ (l - 1) = -1 := by
  have h2 : (w ^ 2 ^ (l - 1)) ^ 2 = 1 := by
    rw [← pow_mul, ← pow_succ, show l - 1 + 1 = l by omega, hw.pow_eq_one]
  rw [sq, mul_self_eq_one_iff] at h2
  rcases h2 with h | h
  · exfalso
    have := Nat.le_of_dvd (by positivity) ((hw.pow_eq_one_iff_dvd _).1 h)
    have h3 : 2 ^ (l - 1) < 2 ^ l := Nat.pow_lt_pow_right (by norm_num) (by omega)
    omega
  · exact h

theorem primitive_le {w : Fr} {l : Nat} (hw : IsPrimitiveRoot w (2 ^ l)) : l ≤ 28 := by
  by_contra hc
  have h1 : 2 ^ l ∣ P - 1 :=
    hw.dvd_of_pow_eq_one _ (ZMod.pow_card_sub_one_eq_one (hw.ne_zero (by positivity)))
  have h2 : (2 : Nat) ^ 29 ∣ P - 1 := (pow_dvd_pow 2 (by omega)).trans h1
  exact absurd h2 (by decide +kernel)

theorem dft_ok (a : List M) (w : Fr) (l : Nat) (hw : IsPrimitiveRoot w (2 ^ l))
    (hlen : a.length = 2 ^ l) :
    bestFft a w l = .ok ((List.range (2 ^ l)).map fun j => polyAt a (w ^ j)) := by
  rw [bestFft_ok a w l (by have := primitive_le hw; omega) hlen (primitive_half hw)]
  congr 1
  apply List.map_congr_left
  intro j _
  rw [polyAt_eq, hlen]
  apply sum_congr rfl
  intro i _
  rw [← pow_mul, mul_comm]

theorem getD_map_range (f : Nat → M) (n i : Nat) (hi : i < n) :
    ((List.range n).map f).getD i 0 = f i := by
  rw [List.getD_eq_getElem?_getD, List.getElem?_map, List.getElem?_range hi]; rfl

theorem getD_lt (l : List M) (i : Nat) (h : i < l.length) : l.getD i 0 = l[i] := by
  rw [List.getD_eq_getElem?_getD, List.getElem?_eq_getElem h]; rfl

theorem list_ext_getD {a b : List M} (h : a.length = b.length)
    (h2 : ∀ i < a.length, a.getD i 0 = b.getD i 0) : a = b := by
  apply List.ext_getElem h
  intro i h1 h3
  have := h2 i h1
  rw [getD_lt _ _ h1, getD_lt _ _ h3] at this
  exact this

namespace IsDomain

variable {d : Domain} {j k : Nat}

theorem ek_le (h : IsDomain d j k) : d.extendedK ≤ 28 := primitive_le h.extendedOmega

theorem k_le (h : IsDomain d j k) : k ≤ d.extendedK := h.extendedLeast.1.1

theorem k_mod (h : IsDomain d j k) : d.k % 64 = k := by
  rw [h.logRows]; have := h.k_le; have := h.ek_le; exact Nat.mod_eq_of_lt (by omega)

theorem extendedLen (h : IsDomain d j k) : d.extendedLen = 2 ^ d.extendedK := by
  rw [Domain.extendedLen, Nat.mod_eq_of_lt (by have := h.ek_le; omega)]

theorem omegaInv_primitive (h : IsDomain d j k) : IsPrimitiveRoot d.omegaInv (2 ^ k) := by
  have : d.omegaInv = d.omega⁻¹ := eq_inv_of_mul_eq_one_right h.omegaInv
  rw [this]; exact h.omega.inv

theorem extendedOmegaInv_primitive (h : IsDomain d j k) :
    IsPrimitiveRoot d.extendedOmegaInv (2 ^ d.extendedK) := by
  have : d.extendedOmegaInv = d.extendedOmega⁻¹ := eq_inv_of_mul_eq_one_right h.extendedOmegaInv
  rw [this]; exact h.extendedOmega.inv

theorem lagrangeToCoeff_ok (h : IsDomain d j k) (a : List M) (ha : a.length = 2 ^ k) :
    d.lagrangeToCoeff a = .ok ((List.range (2 ^ k)).map fun b =>
      d.ifftDivisor • polyAt a (d.omegaInv ^ b)) := by
  unfold Domain.lagrangeToCoeff Domain.ifft
  rw [h.k_mod, if_neg (by simp [ha]), h.logRows, dft_ok a _ k h.omegaInv_primitive ha]
  simp only [Except.map, List.map_map]
  rfl

/-- The coefficients interpolate the values. -/
theorem lagrangeToCoeff_values (h : IsDomain d j k) (a : List M) (ha : a.length = 2 ^ k) :
    ∃ c, d.lagrangeToCoeff a = .ok c ∧ c.length = 2 ^ k ∧
      ∀ i (hi : i < a.length), polyAt c (d.omega ^ i) = a[i] := by
  refine ⟨_, h.lagrangeToCoeff_ok a ha, by simp, fun i hi => ?_⟩
  have hk : i < 2 ^ k := by omega
  rw [polyAt_eq, List.length_map, List.length_range]
  have := inverse_dft h.omegaInv_primitive (by rw [mul_comm]; exact h.omegaInv) h.divisor
    (fun i => a.getD i 0) i hk
  rw [getD_lt _ _ hi] at this
  rw [← this, smul_sum]
  apply sum_congr rfl
  intro b hb
  rw [getD_map_range _ _ _ (mem_range.1 hb), polyAt_eq, ha, smul_smul, smul_smul, ← pow_mul,
    mul_comm, mul_comm i]
  congr 1
  apply sum_congr rfl
  intro x _
  rw [← pow_mul, mul_comm]

/-- The values determine the coefficients. -/
theorem lagrangeToCoeff_unique (h : IsDomain d j k) (c : List M) (hc : c.length = 2 ^ k) :
    d.lagrangeToCoeff ((List.range (2 ^ k)).map fun i => polyAt c (d.omega ^ i)) = .ok c := by
  rw [h.lagrangeToCoeff_ok _ (by simp)]
  congr 1
  apply list_ext_getD (by simp [hc])
  intro b hb
  have hb : b < 2 ^ k := by simpa using hb
  rw [getD_map_range _ _ _ hb, ← inverse_dft h.omega h.omegaInv h.divisor (fun i => c.getD i 0) b hb,
    polyAt_eq, List.length_map, List.length_range]
  congr 1
  apply sum_congr rfl
  intro i hi
  rw [getD_map_range _ _ _ (mem_range.1 hi), polyAt_eq, hc, ← pow_mul, mul_comm b]
  congr 1
  apply sum_congr rfl
  intro x _
  rw [← pow_mul, mul_comm]

/-- Powers of the coset generator. -/
theorem coset_pow (h : IsDomain d j k) (i : Nat) :
    d.gCoset ^ i = if i % 3 = 0 then 1 else if i % 3 = 1 then d.gCoset else d.gCosetInv := by
  have hi : d.gCoset ^ i = d.gCoset ^ (i % 3) := by
    conv_lhs => rw [← Nat.div_add_mod i 3, pow_add, pow_mul, h.cosetOrder, one_pow, one_mul]
  rw [hi]
  have h3 : i % 3 < 3 := Nat.mod_lt _ (by norm_num)
  have hinv : d.gCosetInv = d.gCoset ^ 2 := by
    have h1 := h.cosetOrder
    have h2 := h.cosetInv
    have : d.gCoset * d.gCosetInv = d.gCoset * d.gCoset ^ 2 := by rw [h2, ← h1]; ring
    refine mul_left_cancel₀ ?_ this
    intro h0
    rw [h0, zero_mul] at h2
    exact zero_ne_one h2
  generalize i % 3 = r at *
  interval_cases r
  · simp
  · simp
  · simp [hinv]

theorem cosetInv_pow (h : IsDomain d j k) (i : Nat) :
    d.gCosetInv ^ i = if i % 3 = 0 then 1 else if i % 3 = 1 then d.gCosetInv else d.gCoset := by
  have h1 : d.gCoset ^ i * d.gCosetInv ^ i = 1 := by rw [← mul_pow, h.cosetInv, one_pow]
  have h2 := h.coset_pow i
  have h3 := h.cosetInv
  have hne : d.gCoset ^ i ≠ 0 := by
    intro h0; rw [h0, zero_mul] at h1; exact zero_ne_one h1
  apply mul_left_cancel₀ hne
  rw [h1, h2]
  split
  · simp
  · split
    · exact h3.symm
    · rw [mul_comm]; exact h3.symm

theorem distribute_in (h : IsDomain d j k) (a : List M) :
    d.distributePowersZeta a true = Domain.distributePowers a d.gCoset := by
  unfold Domain.distributePowersZeta Domain.distributePowers
  congr 1
  funext i x
  rw [h.coset_pow]
  split
  · simp
  · split <;> simp

theorem distribute_out (h : IsDomain d j k) (a : List M) :
    d.distributePowersZeta a false = Domain.distributePowers a d.gCosetInv := by
  unfold Domain.distributePowersZeta Domain.distributePowers
  congr 1
  funext i x
  rw [h.cosetInv_pow]
  split
  · simp
  · split <;> simp

end IsDomain

theorem getD_distribute (a : List M) (c : Fr) (i : Nat) :
    (Domain.distributePowers a c).getD i 0 = c ^ i • a.getD i 0 := by
  unfold Domain.distributePowers
  rw [List.getD_eq_getElem?_getD, List.getD_eq_getElem?_getD, List.getElem?_mapIdx]
  cases a[i]? <;> simp

theorem length_distribute (a : List M) (c : Fr) :
    (Domain.distributePowers a c).length = a.length := by
  simp [Domain.distributePowers]

/-- Distributing powers moves the point. -/
theorem polyAt_distribute (a : List M) (c x : Fr) :
    polyAt (Domain.distributePowers a c) x = polyAt a (c * x) := by
  rw [polyAt_eq, polyAt_eq, length_distribute]
  apply sum_congr rfl
  intro i _
  rw [getD_distribute, smul_smul, mul_pow, mul_comm]

theorem getD_resize (a : List M) (n i : Nat) (h : a.length ≤ n) :
    (Domain.resize a n).getD i 0 = a.getD i 0 := by
  unfold Domain.resize
  rw [List.take_of_length_le h, List.getD_eq_getElem?_getD, List.getD_eq_getElem?_getD]
  rcases Nat.lt_or_ge i a.length with hi | hi
  · rw [List.getElem?_append_left hi]
  · rw [List.getElem?_append_right hi, List.getElem?_eq_none hi, List.getElem?_replicate]
    split <;> rfl

theorem length_resize (a : List M) (n : Nat) (h : a.length ≤ n) :
    (Domain.resize a n).length = n := by
  unfold Domain.resize
  rw [List.take_of_length_le h]; simp; omega

/-- Leading zeros do not change a polynomial. -/
theorem polyAt_resize (a : List M) (n : Nat) (x : Fr) (h : a.length ≤ n) :
    polyAt (Domain.resize a n) x = polyAt a x := by
  rw [polyAt_eq, polyAt_eq, length_resize a n h]
  symm
  apply sum_subset_zero_on_sdiff (range_subset_range.2 h)
  · intro i hi
    rw [mem_sdiff, mem_range, mem_range] at hi
    rw [getD_resize a n i h, List.getD_eq_getElem?_getD,
      List.getElem?_eq_none (by omega)]
    simp
  · intro i _
    rw [getD_resize a n i h]

namespace IsDomain

variable {d : Domain} {j k : Nat}

theorem coeffToExtended_ok (h : IsDomain d j k) (c : List M) (hc : c.length = 2 ^ k) :
    d.coeffToExtended c = .ok ((List.range (2 ^ d.extendedK)).map fun i =>
      polyAt c (d.gCoset * d.extendedOmega ^ i)) := by
  have hle : (Domain.distributePowers c d.gCoset).length ≤ 2 ^ d.extendedK := by
    rw [length_distribute, hc]; exact Nat.pow_le_pow_right (by norm_num) h.k_le
  unfold Domain.coeffToExtended
  rw [h.k_mod, if_neg (by simp [hc]), h.distribute_in, h.extendedLen,
    dft_ok _ _ _ h.extendedOmega (length_resize _ _ hle)]
  congr 1
  apply List.map_congr_left
  intro i _
  rw [polyAt_resize _ _ _ hle, polyAt_distribute]

theorem coeffToExtendedPart_ok (h : IsDomain d j k) (c : List M) (hc : c.length = 2 ^ k) (f : Fr) :
    d.coeffToExtendedPart c f = .ok ((List.range (2 ^ k)).map fun i =>
      polyAt c (d.gCoset * f * d.omega ^ i)) := by
  unfold Domain.coeffToExtendedPart
  rw [h.k_mod, if_neg (by simp [hc]), h.logRows,
    dft_ok _ _ _ h.omega (by rw [length_distribute, hc])]
  congr 1
  apply List.map_congr_left
  intro i _
  rw [polyAt_distribute]

theorem parts_count (h : IsDomain d j k) : 2 ^ d.extendedK / 2 ^ k = 2 ^ (d.extendedK - k) :=
  Nat.pow_div h.k_le (by norm_num)

theorem mapM_ok_map {α β ε : Type} (f : α → Except ε β) (g : α → β) : ∀ (l : List α),
    (∀ a ∈ l, f a = .ok (g a)) → l.mapM f = .ok (l.map g) := by
  intro l
  induction l with
  | nil => intro _; rfl
  | cons a l ih =>
    intro h
    rw [List.mapM_cons, h a (by simp), ih (fun b hb => h b (by simp [hb]))]
    rfl

theorem coeffToExtendedParts_ok (h : IsDomain d j k) (c : List M) (hc : c.length = 2 ^ k) :
    d.coeffToExtendedParts c = .ok ((List.range (2 ^ (d.extendedK - k))).map fun p =>
      (List.range (2 ^ k)).map fun i =>
        polyAt c (d.gCoset * d.extendedOmega ^ p * d.omega ^ i)) := by
  unfold Domain.coeffToExtendedParts
  rw [h.k_mod, if_neg (by simp [hc]), h.extendedLen, h.parts_count]
  exact mapM_ok_map _ _ _ fun p _ => h.coeffToExtendedPart_ok c hc _

theorem flatMap_range_eq {α : Type} (f : Nat → α) (a b : Nat) :
    (List.range a).flatMap (fun r => (List.range b).map fun p => f (r * b + p))
      = (List.range (a * b)).map f := by
  induction a with
  | zero => simp
  | succ a ih =>
    rw [List.range_succ, List.flatMap_append, ih, Nat.succ_mul, List.range_add, List.map_append]
    simp

/-- The parts, put together, are the extended form. -/
theorem parts_eq (h : IsDomain d j k) (c : List M) (hc : c.length = 2 ^ k) :
    (d.coeffToExtendedParts c >>= d.extendedFromLagrangeVec) = d.coeffToExtended c := by
  rw [h.coeffToExtendedParts_ok c hc, h.coeffToExtended_ok c hc]
  show d.extendedFromLagrangeVec _ = _
  unfold Domain.extendedFromLagrangeVec
  rw [h.k_mod, h.extendedLen, h.parts_count, if_neg (by simp), if_neg, h.rows]
  · congr 1
    have e : 2 ^ d.extendedK = 2 ^ k * 2 ^ (d.extendedK - k) := by
      rw [← pow_add]; congr 1; have := h.k_le; omega
    rw [e, ← flatMap_range_eq]
    apply List.flatMap_congr
    intro r hr
    rw [List.map_map]
    apply List.map_congr_left
    intro p _
    simp only [Function.comp]
    rw [getD_map_range _ _ _ (List.mem_range.1 hr), ← h.tower, ← pow_mul, mul_assoc, ← pow_add]
    congr 3; ring
  · simp [h.rows]

theorem extendedToCoeff_ok (h : IsDomain d j k) (c : List M)
    (hc : c.length = 2 ^ k * (j - 1)) :
    d.extendedToCoeff ((List.range (2 ^ d.extendedK)).map fun i =>
      polyAt c (d.gCoset * d.extendedOmega ^ i)) = .ok c := by
  have hle : c.length ≤ 2 ^ d.extendedK := by rw [hc]; exact h.extendedLeast.1.2
  have hn : 2 ^ d.extendedK ≤ 2 ^ 28 := Nat.pow_le_pow_right (by norm_num) h.ek_le
  unfold Domain.extendedToCoeff Domain.ifft
  rw [h.extendedLen, if_neg (by simp), dft_ok _ _ _ h.extendedOmegaInv_primitive (by simp)]
  simp only [Except.map, List.map_map]
  congr 1
  rw [h.distribute_out, h.rows, h.quotient, ← hc,
    Nat.mod_eq_of_lt (by have : (2 : Nat) ^ 28 < 2 ^ 64 := by norm_num
                         omega)]
  have hlen : (Domain.distributePowers ((List.range (2 ^ d.extendedK)).map
      ((fun x => d.extendedIfftDivisor • x) ∘ fun i => polyAt ((List.range (2 ^ d.extendedK)).map
        fun i => polyAt c (d.gCoset * d.extendedOmega ^ i)) (d.extendedOmegaInv ^ i)))
      d.gCosetInv).length = 2 ^ d.extendedK := by simp [length_distribute]
  apply list_ext_getD
  · rw [List.length_take, hlen]; omega
  · intro b hb
    rw [List.length_take, hlen] at hb
    have hbc : b < c.length := by omega
    have hbn : b < 2 ^ d.extendedK := by omega
    have htake : ∀ (l : List M), (l.take c.length).getD b 0 = l.getD b 0 := by
      intro l
      rw [List.getD_eq_getElem?_getD, List.getD_eq_getElem?_getD, List.getElem?_take, if_pos hbc]
    rw [htake, getD_distribute, getD_map_range _ _ _ hbn]
    simp only [Function.comp]
    have hinv := inverse_dft h.extendedOmega h.extendedOmegaInv h.extendedDivisor
      (fun i => d.gCoset ^ i • (Domain.resize c (2 ^ d.extendedK)).getD i 0) b hbn
    have hsum : polyAt ((List.range (2 ^ d.extendedK)).map
        fun i => polyAt c (d.gCoset * d.extendedOmega ^ i)) (d.extendedOmegaInv ^ b)
        = ∑ i ∈ range (2 ^ d.extendedK), d.extendedOmegaInv ^ (i * b) •
          ∑ a ∈ range (2 ^ d.extendedK), d.extendedOmega ^ (a * i) •
            (d.gCoset ^ a • (Domain.resize c (2 ^ d.extendedK)).getD a 0) := by
      rw [polyAt_eq, List.length_map, List.length_range]
      apply sum_congr rfl
      intro i hi
      rw [getD_map_range _ _ _ (mem_range.1 hi), ← polyAt_resize c _ _ hle, polyAt_eq,
        length_resize _ _ hle, ← pow_mul, mul_comm b]
      congr 1
      apply sum_congr rfl
      intro a _
      rw [smul_smul, mul_pow, ← pow_mul, mul_comm i, mul_comm]
    rw [hsum, hinv, smul_smul, ← mul_pow, mul_comm d.gCosetInv, h.cosetInv, one_pow, one_smul,
      getD_resize _ _ _ hle]

theorem t_at (h : IsDomain d j k) (i : Nat) :
    d.tEvaluations.getD (i % d.tEvaluations.length) 0
      * ((d.gCoset * d.extendedOmega ^ i) ^ 2 ^ k - 1) = 1 := by
  have hpos : 0 < d.tEvaluations.length := by rw [h.tLength]; positivity
  have hlt := Nat.mod_lt i hpos
  rw [getD_lt _ _ hlt]
  have := h.tEvaluations _ hlt
  have hpow : (d.gCoset * d.extendedOmega ^ i) ^ 2 ^ k
      = (d.gCoset * d.extendedOmega ^ (i % d.tEvaluations.length)) ^ 2 ^ k := by
    rw [mul_pow, mul_pow, ← pow_mul, ← pow_mul]
    congr 1
    conv_lhs => rw [← Nat.div_add_mod i d.tEvaluations.length]
    rw [add_mul, pow_add]
    have : d.extendedOmega ^ (d.tEvaluations.length * (i / d.tEvaluations.length) * 2 ^ k) = 1 := by
      rw [h.extendedOmega.pow_eq_one_iff_dvd, h.tLength]
      refine ⟨i / 2 ^ (d.extendedK - k), ?_⟩
      have e : 2 ^ d.extendedK = 2 ^ k * 2 ^ (d.extendedK - k) := by
        rw [← pow_add]; congr 1; have := h.k_le; omega
      rw [e]; ring
    rw [this, one_mul]
  rw [hpow]; exact this

/-- The quotient by the vanishing polynomial. -/
theorem divide_ok (h : IsDomain d j k) (f : Nat → M) :
    d.divideByVanishingPoly ((List.range (2 ^ d.extendedK)).map fun i =>
      ((d.gCoset * d.extendedOmega ^ i) ^ 2 ^ k - 1) • f i)
      = .ok ((List.range (2 ^ d.extendedK)).map f) := by
  have hpos : 0 < d.tEvaluations.length := by rw [h.tLength]; positivity
  unfold Domain.divideByVanishingPoly
  rw [h.extendedLen, if_neg (by simp), if_neg (by omega)]
  congr 1
  apply list_ext_getD (by simp)
  intro i hi
  have hi : i < 2 ^ d.extendedK := by simpa using hi
  rw [getD_map_range _ _ _ hi, List.getD_eq_getElem?_getD, List.getElem?_mapIdx,
    List.getElem?_map, List.getElem?_range hi]
  simp only [Option.map_some, Option.getD_some]
  rw [smul_smul, h.t_at, one_smul]

end IsDomain

theorem evalPolynomial_eq (c : List Fr) (x : Fr) : evalPolynomial c x = polyAt c x := by
  induction c with
  | nil => rw [polyAt_nil]; rfl
  | cons a c ih =>
    rw [polyAt_cons, ← ih]
    unfold evalPolynomial
    rw [List.reverse_cons, List.foldl_append]
    simp only [List.foldl_cons, List.foldl_nil, smul_eq_mul]
    ring

end Verif
