import Verif.Model.Kzg
import Verif.Lemmas.BytesLemmas
import Verif.Lemmas.PolyArith

/-!
Multi-exponentiation and commitments.
-/

set_option linter.unusedSectionVars false

namespace Verif

open Finset

variable {M : Type} [AddCommGroup M] [Module Fr M]

theorem leNat_drop (s : Nat) : ∀ l : List UInt8, leNat (l.drop s) = leNat l / 256 ^ s := by
  induction s with
  | zero => intro l; simp
  | succ s ih =>
    intro l
    cases l with
    | nil => simp [leNat]
    | cons b l =>
      have hb := b.toNat_lt
      rw [List.drop_succ_cons, ih, pow_succ', ← Nat.div_div_eq_div_mul]
      congr 1
      simp only [leNat]; omega

theorem leNat_take (m : Nat) : ∀ l : List UInt8, leNat (l.take m) = leNat l % 256 ^ m := by
  induction m with
  | zero => intro l; simp [leNat, Nat.mod_one]
  | succ m ih =>
    intro l
    cases l with
    | nil => simp [leNat]
    | cons b l =>
      have hb := b.toNat_lt
      simp only [List.take_succ_cons, leNat, ih]
      rw [pow_succ', Nat.mod_mul]
      have h1 : (b.toNat + 256 * leNat l) % 256 = b.toNat := by omega
      have h2 : (b.toNat + 256 * leNat l) / 256 = leNat l := by omega
      rw [h1, h2]

theorem getAt_eq (segment c v : Nat) (hv : v < 2 ^ 256) (hc : c ≤ 57) :
    getAt segment c (leBytes 32 v) = v / 2 ^ (segment * c) % 2 ^ c := by
  have h256 : (256 : Nat) ^ 32 = 2 ^ 256 := by decide +kernel
  unfold getAt
  simp only
  generalize segment * c = b
  split
  · next h =>
    have hb : 256 ≤ b := by omega
    have : v < 2 ^ b := lt_of_lt_of_le hv (Nat.pow_le_pow_right (by norm_num) hb)
    rw [Nat.div_eq_of_lt this, Nat.zero_mod]
  · rw [leNat_take, leNat_drop, leNat_leBytes 32 v (by rw [h256]; exact hv)]
    have e1 : (256 : Nat) ^ (b / 8) = 2 ^ (8 * (b / 8)) := by
      rw [pow_mul]; norm_num
    have e2 : (256 : Nat) ^ 8 = 2 ^ (b - b / 8 * 8) * 2 ^ (64 - (b - b / 8 * 8)) := by
      rw [← pow_add, show b - b / 8 * 8 + (64 - (b - b / 8 * 8)) = 64 by omega]; norm_num
    rw [e2, Nat.mod_mul_right_div_self, Nat.mod_mod_of_dvd _ (pow_dvd_pow 2 (by omega)), e1,
      Nat.div_div_eq_div_mul, ← pow_add]
    congr 3; omega

/-- The buckets weighed by their place, the first one by `i`. -/
def wsum : Nat → List M → M
  | _, [] => 0
  | i, x :: l => i • x + wsum (i + 1) l

theorem wsum_succ (l : List M) : ∀ i, wsum (i + 1) l = wsum i l + l.sum := by
  induction l with
  | nil => intro i; simp [wsum]
  | cons x l ih =>
    intro i
    rw [wsum, wsum, ih, List.sum_cons, succ_nsmul]
    abel

theorem wsum_set (y : M) : ∀ (l : List M) (p i : Nat), p < l.length →
    wsum i (l.set p (l.getD p 0 + y)) = wsum i l + (i + p) • y := by
  intro l
  induction l with
  | nil => intro p i h; simp at h
  | cons x l ih =>
    intro p i h
    cases p with
    | zero =>
      simp only [List.set_cons_zero, List.getD_cons_zero, wsum, Nat.add_zero, nsmul_add]
      abel
    | succ p =>
      simp only [List.set_cons_succ, List.getD_cons_succ, wsum]
      rw [ih p (i + 1) (by simpa using h), show i + 1 + p = i + (p + 1) by ring]
      abel

theorem wsum_zero (n : Nat) : ∀ i, wsum i (List.replicate n (0 : M)) = 0 := by
  induction n with
  | zero => intro i; rfl
  | succ n ih => intro i; rw [List.replicate_succ, wsum, ih]; simp

theorem sumBuckets_eq (b : List M) (acc : M) : sumBuckets b acc = acc + wsum 1 b := by
  have : ∀ b : List M, b.reverse.foldl (fun (s : M × M) b => (s.1 + b, s.2 + (s.1 + b))) (0, acc)
      = (b.sum, acc + wsum 1 b) := by
    intro b
    induction b with
    | nil => simp [wsum]
    | cons x b ih =>
      rw [List.reverse_cons, List.foldl_append, ih]
      simp only [List.foldl_cons, List.foldl_nil, List.sum_cons, wsum, one_nsmul]
      rw [wsum_succ b 1]
      refine Prod.ext ?_ ?_
      · simp only; abel
      · simp only; abel
  rw [sumBuckets, this]

theorem fillBuckets_wsum (segment c : Nat) (hc : c ≤ 57) : ∀ (terms : List (Nat × M)) (b : List M),
    (∀ t ∈ terms, t.1 < 2 ^ 256) → b.length = 2 ^ c - 1 →
    wsum 1 ((terms.map fun t => (leBytes 32 t.1, t.2)).foldl (fun buckets t =>
      let coeff := getAt segment c t.1
      if coeff ≠ 0 then buckets.set (coeff - 1) (buckets.getD (coeff - 1) 0 + t.2) else buckets) b)
    = wsum 1 b + (terms.map fun t => (t.1 / 2 ^ (segment * c) % 2 ^ c) • t.2).sum := by
  intro terms
  induction terms with
  | nil => intro b _ _; simp
  | cons t terms ih =>
    intro b ht hb
    rw [List.map_cons, List.foldl_cons, List.map_cons, List.sum_cons]
    simp only
    rw [getAt_eq segment c t.1 (ht t (by simp)) hc]
    have hlt : t.1 / 2 ^ (segment * c) % 2 ^ c < 2 ^ c := Nat.mod_lt _ (by positivity)
    generalize t.1 / 2 ^ (segment * c) % 2 ^ c = q at hlt
    split
    · next hq =>
      have := ih (b.set (q - 1) (b.getD (q - 1) 0 + t.2)) (fun t' h' => ht t' (by simp [h']))
        (by rw [List.length_set, hb])
      simp only at this
      rw [this, wsum_set _ _ _ _ (by omega), show 1 + (q - 1) = q by omega]
      abel
    · next hq =>
      have hq : q = 0 := by omega
      have := ih b (fun t' h' => ht t' (by simp [h'])) hb
      simp only at this
      rw [this, hq, zero_nsmul, zero_add]

theorem segments_sum (c : Nat) (hc : c ≤ 57) (terms : List (Nat × M))
    (ht : ∀ t ∈ terms, t.1 < 2 ^ 256) : ∀ (T : Nat) (acc : M),
    (List.range T).reverse.foldl (fun acc segment =>
      sumBuckets (fillBuckets segment c (terms.map fun t => (leBytes 32 t.1, t.2))) (2 ^ c • acc)) acc
    = 2 ^ (c * T) • acc + (terms.map fun t => (t.1 % 2 ^ (c * T)) • t.2).sum := by
  intro T
  induction T with
  | zero => intro acc; simp [Nat.mod_one]
  | succ T ih =>
    intro acc
    rw [List.range_succ, List.reverse_append, List.reverse_singleton, List.singleton_append,
      List.foldl_cons, ih, sumBuckets_eq]
    unfold fillBuckets
    rw [fillBuckets_wsum T c hc terms _ ht (by simp), wsum_zero, zero_add, smul_add, smul_smul,
      ← pow_add, List.smul_sum, List.map_map, add_assoc]
    have e1 : 2 ^ (c * T + c) • acc = 2 ^ (c * (T + 1)) • acc := by rw [Nat.mul_succ]
    rw [e1]
    congr 1
    · rw [← List.sum_map_add]
      congr 1
      apply List.map_congr_left
      intro t _
      simp only [Function.comp]
      rw [smul_smul, ← add_smul]
      congr 1
      rw [show c * (T + 1) = c * T + c by ring, pow_add, Nat.mod_mul, mul_comm T c]
      ring

/-- The multi-exponentiation is the sum of the multiples. -/
theorem multiexpSerial_eq (coeffs : List Fr) (bases : List M) :
    multiexpSerial coeffs bases 0 = ((coeffs.zip bases).map fun p => p.1 • p.2).sum := by
  have hP : P < 2 ^ 256 := by decide +kernel
  have hzip : (coeffs.map fun c => leBytes 32 c.val).zip bases
      = ((coeffs.zip bases).map fun p => (p.1.val, p.2)).map fun t => (leBytes 32 t.1, t.2) := by
    rw [List.map_map, List.zip_map_left]
    apply List.map_congr_left
    intro p _; rfl
  have hc : windowSize bases.length ≤ 4 ∧ 0 < windowSize bases.length ∧
      256 ≤ windowSize bases.length * (256 / windowSize bases.length + 1) := by
    unfold windowSize; split
    · norm_num
    · split <;> norm_num
  unfold multiexpSerial
  simp only
  rw [hzip]
  generalize windowSize bases.length = c at *
  rw [segments_sum c (by omega) _ ?_, smul_zero, zero_add, List.map_map]
  · congr 1
    apply List.map_congr_left
    intro p _
    have hv : p.1.val < P := ZMod.val_lt p.1
    have hlt : p.1.val < 2 ^ (c * (256 / c + 1)) :=
      lt_of_lt_of_le (hv.trans hP) (Nat.pow_le_pow_right (by norm_num) hc.2.2)
    simp only [Function.comp]
    rw [Nat.mod_eq_of_lt hlt, ← Nat.cast_smul_eq_nsmul Fr, ZMod.natCast_val, ZMod.cast_id]
  · intro t ht
    rw [List.mem_map] at ht
    obtain ⟨p, _, rfl⟩ := ht
    exact (ZMod.val_lt p.1).trans hP

/-- The sum of multiples, by index. -/
theorem sum_zip (coeffs : List Fr) (bases : List M) (h : coeffs.length = bases.length) :
    ((coeffs.zip bases).map fun p => p.1 • p.2).sum
      = ∑ i ∈ range coeffs.length, coeffs.getD i 0 • bases.getD i 0 := by
  induction coeffs generalizing bases with
  | nil => simp
  | cons a coeffs ih =>
    cases bases with
    | nil => simp at h
    | cons b bases =>
      rw [List.zip_cons_cons, List.map_cons, List.sum_cons, ih bases (by simpa using h),
        List.length_cons, sum_range_succ']
      simp only [List.getD_cons_zero, List.getD_cons_succ]
      rw [add_comm]

theorem root_inv : rootOfUnity * rootOfUnityInv = 1 := by
  have : rootOfUnity * rootOfUnityInv = ((1 : Nat) : Fr) := by
    unfold rootOfUnity rootOfUnityInv
    rw [← Nat.cast_mul, ZMod.natCast_eq_natCast_iff']
    decide +kernel
  rw [this, Nat.cast_one]

theorem two_inv : twoInvFr * ((2 : Nat) : Fr) = 1 := by
  have : twoInvFr * ((2 : Nat) : Fr) = ((1 : Nat) : Fr) := by
    unfold twoInvFr
    rw [← Nat.cast_mul, ZMod.natCast_eq_natCast_iff']
    decide +kernel
  rw [this, Nat.cast_one]

/-- The root the parameters are built with. -/
def rootFor (k : Nat) : Fr := rootOfUnity ^ 2 ^ (28 - k)

theorem rootFor_primitive (k : Nat) (hk : k ≤ 28) : IsPrimitiveRoot (rootFor k) (2 ^ k) := by
  have := Domain.primitive_two_pow Domain.root_primitive (28 - k)
  rwa [show 28 - (28 - k) = k by omega] at this

theorem geometric (w x : Fr) (n i : Nat) (hw : IsPrimitiveRoot w n) (hx : x ≠ w ^ i) :
    (∑ b ∈ range n, (x * (w⁻¹) ^ i) ^ b) = (x - w ^ i)⁻¹ * (x ^ n - 1) * w ^ i := by
  by_cases hn : n = 0
  · subst hn; simp
  have hw0 : w ≠ 0 := hw.ne_zero hn
  have hg := geom_sum_mul (x * (w⁻¹) ^ i) n
  have h1 : ((w⁻¹) ^ i) ^ n = 1 := by
    rw [← pow_mul, mul_comm, pow_mul, inv_pow, hw.pow_eq_one, inv_one, one_pow]
  have hww : w ^ i * (w⁻¹) ^ i = 1 := by rw [← mul_pow, mul_inv_cancel₀ hw0, one_pow]
  rw [mul_pow, h1, mul_one] at hg
  have hxne : x - w ^ i ≠ 0 := sub_ne_zero.2 hx
  generalize (∑ b ∈ range n, (x * (w⁻¹) ^ i) ^ b) = S at hg ⊢
  generalize x ^ n = X at hg ⊢
  apply mul_left_cancel₀ hxne
  rw [← mul_assoc, ← mul_assoc, mul_inv_cancel₀ hxne]
  linear_combination w ^ i * hg - S * x * hww

/-- What the parameters for `2^k` rows and the secret `s` are. -/
def srsFor {M₂ : Type} [AddCommGroup M₂] [Module Fr M₂] (g1 : M) (g2 : M₂) (k : Nat) (s : Fr) :
    Srs M M₂ where
  k := k
  n := 2 ^ k
  g := (List.range (2 ^ k)).map fun i => s ^ i • g1
  gLagrange := (List.range (2 ^ k)).map fun i =>
    ((s ^ 2 ^ k - 1) * ((2 ^ k : Nat) : Fr)⁻¹ * rootFor k ^ i * (s - rootFor k ^ i)⁻¹) • g1
  g2 := g2
  sG2 := s • g2

section
variable {M₂ : Type} [AddCommGroup M₂] [Module Fr M₂]

theorem setup_eq (g1 : M) (g2 : M₂) (k : Nat) (s : Fr) :
    Srs.setup g1 g2 k s =
      if 28 < k then .error .assert
      else if s ^ 2 ^ k = 1 then .error .unwrap
      else .ok (srsFor g1 g2 k s) := by
  unfold Srs.setup
  have h0 : rootOfUnityInv ≠ 0 := by
    intro h; have := root_inv; rw [h, mul_zero] at this; exact zero_ne_one this
  have hinv : rootOfUnityInv⁻¹ = rootOfUnity :=
    (eq_inv_of_mul_eq_one_left root_inv).symm
  by_cases hk : 28 < k
  · rw [if_pos (by simp only [twoAdicity]; omega), if_pos hk]
  · rw [if_neg (by simp only [twoAdicity]; omega), if_neg hk]
    simp only
    rw [if_neg h0, if_neg (Domain.two_pow_ne k), hinv, Domain.squares_eq]
    have hroot : rootOfUnity ^ 2 ^ (twoAdicity - k) = rootFor k := rfl
    rw [hroot]
    have hw := rootFor_primitive k (by omega)
    have hany : ((List.range (2 ^ k)).any fun i => decide (s - rootFor k ^ i = 0)) = true
        ↔ s ^ 2 ^ k = 1 := by
      rw [List.any_eq_true]
      constructor
      · rintro ⟨i, _, h⟩
        have : s = rootFor k ^ i := sub_eq_zero.1 (of_decide_eq_true h)
        rw [this, ← pow_mul, mul_comm, pow_mul, hw.pow_eq_one, one_pow]
      · intro h
        have : NeZero (2 ^ k) := ⟨by positivity⟩
        obtain ⟨i, hi, he⟩ := hw.eq_pow_of_pow_eq_one h
        exact ⟨i, List.mem_range.2 hi, by simp [he]⟩
    by_cases hs : s ^ 2 ^ k = 1
    · rw [if_pos (hany.2 hs), if_pos hs]
    · rw [if_neg (fun h => hs (hany.1 h)), if_neg hs]
      rfl

theorem commit_eq (p : Srs M M₂) (c : List Fr) (h : c.length ≤ p.g.length) :
    p.commit c = .ok (∑ i ∈ range c.length, c.getD i 0 • p.g.getD i 0) := by
  unfold Srs.commit bestMultiexp
  have hl : (p.g.take c.length).length = c.length := by rw [List.length_take]; omega
  rw [if_neg (by omega), if_neg (by simp [hl]), multiexpSerial_eq, sum_zip _ _ hl.symm]
  congr 1
  apply sum_congr rfl
  intro i hi
  congr 1
  rw [List.getD_eq_getElem?_getD, List.getD_eq_getElem?_getD, List.getElem?_take,
    if_pos (mem_range.1 hi)]

theorem commitLagrange_eq (p : Srs M M₂) (c : List Fr) (h : c.length ≤ p.gLagrange.length) :
    p.commitLagrange c = .ok (∑ i ∈ range c.length, c.getD i 0 • p.gLagrange.getD i 0) := by
  unfold Srs.commitLagrange bestMultiexp
  have hl : (p.gLagrange.take c.length).length = c.length := by rw [List.length_take]; omega
  rw [if_neg (by omega), if_neg (by simp [hl]), multiexpSerial_eq, sum_zip _ _ hl.symm]
  congr 1
  apply sum_congr rfl
  intro i hi
  congr 1
  rw [List.getD_eq_getElem?_getD, List.getD_eq_getElem?_getD, List.getElem?_take,
    if_pos (mem_range.1 hi)]

theorem commit_srsFor (g1 : M) (g2 : M₂) (k : Nat) (s : Fr) (c : List Fr) (hc : c.length ≤ 2 ^ k) :
    (srsFor g1 g2 k s).commit c = .ok (polyAt c s • g1) := by
  rw [commit_eq _ _ (by simpa [srsFor] using hc), polyAt_eq, sum_smul]
  congr 1
  apply sum_congr rfl
  intro i hi
  have hi : i < 2 ^ k := by have := mem_range.1 hi; omega
  simp only [srsFor]
  rw [getD_map_range _ _ _ hi, smul_smul, smul_eq_mul, mul_comm]

/-- A polynomial from its values on the domain. -/
theorem interp_at {w wi div : Fr} {n : Nat} (hw : IsPrimitiveRoot w n) (hi : w * wi = 1)
    (c : List Fr) (hc : c.length = n) (hd : div * (n : Fr) = 1) (x : Fr)
    (hx : ∀ i, x ≠ w ^ i) :
    polyAt c x = ∑ i ∈ range n, polyAt c (w ^ i)
      * ((x ^ n - 1) * div * w ^ i * (x - w ^ i)⁻¹) := by
  have hwi : wi = w⁻¹ := eq_inv_of_mul_eq_one_right hi
  have hcoef : ∀ b < n, c.getD b 0
      = div * ∑ i ∈ range n, wi ^ (i * b) * polyAt c (w ^ i) := by
    intro b hb
    have := inverse_dft hw hi hd (fun i => c.getD i 0) b hb
    rw [← this, smul_eq_mul]
    congr 1
    apply sum_congr rfl
    intro i _
    rw [smul_eq_mul, polyAt_eq, hc]
    congr 1
    apply sum_congr rfl
    intro a _
    rw [← pow_mul, mul_comm i]
  conv_lhs => rw [polyAt_eq, hc]
  have h1 : ∑ b ∈ range n, x ^ b • c.getD b 0
      = ∑ b ∈ range n, ∑ i ∈ range n, div * polyAt c (w ^ i) * (x * (w⁻¹) ^ i) ^ b := by
    apply sum_congr rfl
    intro b hb
    rw [hcoef b (mem_range.1 hb), smul_eq_mul, mul_sum, mul_sum]
    apply sum_congr rfl
    intro i _
    rw [mul_pow, ← pow_mul, hwi]; ring
  rw [h1, sum_comm]
  apply sum_congr rfl
  intro i _
  rw [← mul_sum, geometric w x n i hw (hx i)]
  ring

theorem commitLagrange_srsFor (g1 : M) (g2 : M₂) (k : Nat) (hk : k ≤ 28) (s : Fr)
    (hs : s ^ 2 ^ k ≠ 1) (c : List Fr) (hc : c.length = 2 ^ k) :
    (srsFor g1 g2 k s).commitLagrange ((List.range (2 ^ k)).map fun i => polyAt c (rootFor k ^ i))
      = .ok (polyAt c s • g1) := by
  have hw := rootFor_primitive k hk
  have hx : ∀ i, s ≠ rootFor k ^ i := by
    intro i h
    apply hs
    rw [h, ← pow_mul, mul_comm, pow_mul, hw.pow_eq_one, one_pow]
  rw [commitLagrange_eq _ _ (by simp [srsFor]),
    interp_at hw (mul_inv_cancel₀ (hw.ne_zero (by positivity))) c hc
      (inv_mul_cancel₀ (Domain.two_pow_ne k)) s hx, sum_smul, List.length_map, List.length_range]
  congr 1
  apply sum_congr rfl
  intro i hi
  simp only [srsFor]
  rw [getD_map_range _ _ _ (mem_range.1 hi), getD_map_range _ _ _ (mem_range.1 hi), smul_smul]

theorem gToLagrange_srs (g1 : M) (k : Nat) (hk : k ≤ 28) (s : Fr) (hs : s ^ 2 ^ k ≠ 1) :
    gToLagrange ((List.range (2 ^ k)).map fun i => s ^ i • g1) k
      = .ok ((List.range (2 ^ k)).map fun i =>
        ((s ^ 2 ^ k - 1) * ((2 ^ k : Nat) : Fr)⁻¹ * rootFor k ^ i * (s - rootFor k ^ i)⁻¹) • g1) := by
  have hw := rootFor_primitive k hk
  have hx : ∀ i, s ≠ rootFor k ^ i := by
    intro i h
    apply hs
    rw [h, ← pow_mul, mul_comm, pow_mul, hw.pow_eq_one, one_pow]
  have hinv : rootOfUnityInv ^ 2 ^ (28 - k) = (rootFor k)⁻¹ := by
    rw [rootFor, ← inv_pow, eq_inv_of_mul_eq_one_right root_inv]
  have htwo : twoInvFr ^ k = ((2 ^ k : Nat) : Fr)⁻¹ := by
    rw [Nat.cast_pow, ← inv_pow, eq_inv_of_mul_eq_one_left two_inv]
  unfold gToLagrange
  rw [Domain.squares_eq, show twoAdicity - k = 28 - k from rfl, hinv,
    dft_ok _ _ _ hw.inv (by simp), htwo]
  simp only [Except.map, List.map_map]
  congr 1
  apply List.map_congr_left
  intro i _
  simp only [Function.comp]
  rw [polyAt_eq, List.length_map, List.length_range]
  have : ∑ b ∈ range (2 ^ k), ((rootFor k)⁻¹ ^ i) ^ b •
      ((List.range (2 ^ k)).map fun i => s ^ i • g1).getD b 0
      = (∑ b ∈ range (2 ^ k), (s * ((rootFor k)⁻¹) ^ i) ^ b) • g1 := by
    rw [sum_smul]
    apply sum_congr rfl
    intro b hb
    rw [getD_map_range _ _ _ (mem_range.1 hb), smul_smul, mul_pow, mul_comm]
  rw [this, geometric _ _ _ _ hw (hx i), smul_smul]
  congr 1; ring

theorem downsize_srsFor (g1 : M) (g2 : M₂) (k k' : Nat) (hk : k ≤ 28) (hk' : k' ≤ k) (s : Fr)
    (hs : s ^ 2 ^ k ≠ 1) : (srsFor g1 g2 k s).downsize k' = .ok (srsFor g1 g2 k' s) := by
  have hs' : s ^ 2 ^ k' ≠ 1 := by
    intro h
    apply hs
    rw [show k = k' + (k - k') by omega, pow_add, pow_mul, h, one_pow]
  have hle : 2 ^ k' ≤ 2 ^ k := Nat.pow_le_pow_right (by norm_num) hk'
  unfold Srs.downsize
  rw [if_neg (by simpa [srsFor] using hk')]
  have htake : (srsFor g1 g2 k s).g.take (2 ^ k') = (List.range (2 ^ k')).map fun i => s ^ i • g1 := by
    simp only [srsFor]
    rw [← List.map_take, List.take_range, Nat.min_eq_left hle]
  simp only
  rw [htake, gToLagrange_srs g1 k' (by omega) s hs']
  rfl

end

end Verif
