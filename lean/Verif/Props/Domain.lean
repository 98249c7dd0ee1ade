import Verif.Lemmas.DomainRange
import Verif.Lemmas.KzgLemmas

/-!
Properties of evaluation domains, of the forms of polynomials and of commitments.
-/

namespace Verif.Props

open Domain

variable {M M₂ : Type} [AddCommGroup M] [Module Fr M] [AddCommGroup M₂] [Module Fr M₂]

/-! ### C40: evaluation domains -/

/-- C40, the part that holds: whenever the least power of two that holds the quotient is at most
`2^28`, the domain is built, with or without overflow checks, and it is one. What is missing: the
domain is built, or its construction ends, for some larger `k` as well, see `C40_domain_false`. -/
theorem C40_domain_partial (checks : Bool) (j k e : Nat) (hj : 0 < j) (hj2 : j < 2 ^ 32)
    (he : IsLeast {e | k ≤ e ∧ 2 ^ k * (j - 1) ≤ 2 ^ e} e) (hs : e ≤ 28) (fuel : Nat)
    (hf : 32 + 2 ^ (e - k) ≤ fuel) :
    ∃ d, new checks fuel j k = .ok d ∧ IsDomain d j k := by
  obtain ⟨d, h, hd, -⟩ := new_domain checks fuel j k e hj hj2 he hs hf
  exact ⟨d, h, hd⟩

/-- C40 for the degree of the brainfuck circuit: all `k` up to 24. -/
theorem C40_circuit_partial (checks : Bool) (k : Nat) (hk : k ≤ 24) (fuel : Nat) (hf : 48 ≤ fuel) :
    ∃ d, new checks fuel 11 k = .ok d ∧ IsDomain d 11 k :=
  C40_domain_partial checks 11 k (k + 4) (by norm_num) (by norm_num) (least_11 k) (by omega) fuel
    (by rw [show k + 4 - k = 4 by omega]; omega)

/-- C40 is false. Without overflow checks (the verifier is built without), from a verifying key with
`k = 60` the construction never ends; with `k = 63` and with `k = 88` it ends with something that is
no domain. -/
theorem C40_domain_false :
    (∀ fuel, new false fuel 11 60 = .error .hang) ∧
    (∀ fuel, 64 ≤ fuel → ∃ d, new false fuel 11 63 = .ok d ∧ ¬ IsDomain d 11 63) ∧
    (∀ fuel, 64 ≤ fuel → ∃ d, new false fuel 11 88 = .ok d ∧ d.n = 2 ^ 24 ∧ ¬ IsDomain d 11 88) := by
  refine ⟨fun fuel => new_60 60 fuel (by norm_num), fun fuel hf => ?_, fun fuel hf => ?_⟩
  · obtain ⟨d, h, -, he, -⟩ := new_63 63 fuel (by norm_num) (by norm_num) hf
    refine ⟨d, h, fun hd => ?_⟩
    have := hd.ek_le
    omega
  · obtain ⟨d, h, hn, -, -⟩ := new_24 88 fuel (by norm_num) (by norm_num) (by norm_num) hf
    refine ⟨d, h, hn, fun hd => ?_⟩
    have := hd.rows
    rw [hn] at this
    have := Nat.pow_right_injective le_rfl this
    omega

/-- C40, every 32-bit `k` the circuit cannot be built for: reading panics, except for the `k` that are
24, 60 or 63 modulo 64. -/
theorem C40_rejected_partial (k : Nat) (hk : k < 2 ^ 32) (h24 : 24 < k) (fuel : Nat)
    (hf : 2 ^ 28 + 64 ≤ fuel) :
    new false fuel 11 k = .error .assert ↔ k % 64 ≠ 24 ∧ k % 64 ≠ 60 ∧ k % 64 ≠ 63 := by
  constructor
  · intro h
    refine ⟨fun hr => ?_, fun hr => ?_, fun hr => ?_⟩
    · obtain ⟨d, hd, -⟩ := new_24 k fuel hk (by omega) hr (by omega)
      rw [h] at hd; exact absurd hd (by simp)
    · rw [new_60 k fuel hr] at h; exact absurd h (by decide)
    · obtain ⟨d, hd, -⟩ := new_63 k fuel hk hr (by omega)
      rw [h] at hd; exact absurd hd (by simp)
  · rintro ⟨h1, h2, h3⟩
    rcases Nat.lt_or_ge (k % 64) 60 with h | h
    · exact new_low k fuel hk h24 (by omega) h1 hf
    · rcases (show k % 64 = 61 ∨ k % 64 = 62 by omega) with h | h
      · exact new_61 k fuel hk h hf
      · exact new_62 k fuel hk h hf

/-- The domain of the smallest circuit that fits a program of some hundred instructions. -/
example : ∃ d, new false 48 11 9 = .ok d ∧ IsDomain d 11 9 :=
  C40_circuit_partial false 9 (by norm_num) 48 (by norm_num)

example : ∀ fuel, 2 ^ 28 + 64 ≤ fuel → new false fuel 11 25 = .error .assert := fun fuel hf =>
  (C40_rejected_partial 25 (by norm_num) (by norm_num) fuel hf).2 (by norm_num)

/-! ### C41: the forms of a polynomial -/

/-- C41. The transform evaluates the polynomial at all powers of the root of unity. -/
theorem C41_transform (a : List M) (w : Fr) (l : Nat) (hw : IsPrimitiveRoot w (2 ^ l))
    (hlen : a.length = 2 ^ l) :
    bestFft a w l = .ok ((List.range (2 ^ l)).map fun j => polyAt a (w ^ j)) :=
  dft_ok a w l hw hlen

/-- C41. From the values in the rows one gets the coefficients of the one polynomial of degree below
`2^k` that takes them. -/
theorem C41_interpolates {d : Domain} {j k : Nat} (hd : IsDomain d j k) (values : List M)
    (hv : values.length = 2 ^ k) :
    ∃ c, d.lagrangeToCoeff values = .ok c ∧ c.length = 2 ^ k ∧
      (∀ i (hi : i < values.length), polyAt c (d.omega ^ i) = values[i]) ∧
      ∀ c' : List M, c'.length = 2 ^ k →
        (∀ i (hi : i < values.length), polyAt c' (d.omega ^ i) = values[i]) → c' = c := by
  obtain ⟨c, h, hc, hval⟩ := hd.lagrangeToCoeff_values values hv
  refine ⟨c, h, hc, hval, fun c' hc' hval' => ?_⟩
  have h2 := hd.lagrangeToCoeff_unique c' hc'
  have : ((List.range (2 ^ k)).map fun i => polyAt c' (d.omega ^ i)) = values := by
    apply List.ext_getElem (by simp [hv])
    intro i h1 h3
    simp only [List.getElem_map, List.getElem_range]
    exact hval' i h3
  rw [this, h] at h2
  exact (Except.ok.inj h2).symm

/-- C41. The extended form holds the values on the coset, computed at once or in parts. -/
theorem C41_extended {d : Domain} {j k : Nat} (hd : IsDomain d j k) (c : List M)
    (hc : c.length = 2 ^ k) :
    d.coeffToExtended c = .ok ((List.range (2 ^ d.extendedK)).map fun i =>
      polyAt c (d.gCoset * d.extendedOmega ^ i)) ∧
    (d.coeffToExtendedParts c >>= d.extendedFromLagrangeVec) = d.coeffToExtended c :=
  ⟨hd.coeffToExtended_ok c hc, hd.parts_eq c hc⟩

/-- C41. The quotient: if a polynomial is `(X^n - 1)·q` with `q` of degree below `n(j-1)`, dividing
its extended form by the vanishing polynomial and going back to coefficients gives exactly `q`. -/
theorem C41_quotient {d : Domain} {j k : Nat} (hd : IsDomain d j k) (f : Fr → M) (q : List M)
    (hq : q.length = 2 ^ k * (j - 1)) (hf : ∀ x, f x = (x ^ 2 ^ k - 1) • polyAt q x) :
    (d.divideByVanishingPoly ((List.range (2 ^ d.extendedK)).map fun i =>
      f (d.gCoset * d.extendedOmega ^ i)) >>= d.extendedToCoeff) = .ok q := by
  simp only [hf]
  rw [hd.divide_ok (fun i => polyAt q (d.gCoset * d.extendedOmega ^ i))]
  exact hd.extendedToCoeff_ok q hq

/-- Four values on the domain of four rows. -/
example : ∃ d c, new false 48 11 2 = .ok d ∧ d.lagrangeToCoeff [(3 : Fr), 1, 4, 1] = .ok c ∧
    polyAt c (d.omega ^ 2) = 4 := by
  obtain ⟨d, h, hd⟩ := C40_circuit_partial false 2 (by norm_num) 48 (by norm_num)
  obtain ⟨c, hc, -, hv, -⟩ := C41_interpolates hd [(3 : Fr), 1, 4, 1] (by simp)
  exact ⟨d, c, h, hc, hv 2 (by simp)⟩

/-! ### C42: polynomial arithmetic -/

/-- C42. Evaluation. -/
theorem C42_evaluate (c : List Fr) (x : Fr) : evalPolynomial c x = polyAt c x :=
  evalPolynomial_eq c x

/-- C42. Division by `X - b`: the quotient has one coefficient less, and the remainder is the value
at `b`. -/
theorem C42_division (a : List Fr) (b : Fr) (ha : a ≠ []) :
    ∃ q, kateDivision a b = .ok q ∧ q.length + 1 = a.length ∧
      ∀ x, polyAt a x = (x - b) * polyAt q x + polyAt a b :=
  kateDivision_spec a b ha

/-- C42, the part on interpolation that holds: through points with different abscissae. What is
missing: equal abscissae make the code panic, see `C42_interpolation_false`. -/
theorem C42_interpolation_partial (points evals : List Fr) (hl : points.length = evals.length)
    (hn : points.Nodup) :
    ∃ c, lagrangeInterpolate points evals = .ok c ∧ c.length = points.length ∧
      ∀ (i : Nat) (h1 : i < points.length) (h2 : i < evals.length),
        polyAt c points[i] = evals[i] :=
  lagrangeInterpolate_spec points evals hl hn

/-- C42 is false: interpolation is documented to panic for equal points; it returns a polynomial that
takes neither value. -/
theorem C42_interpolation_false :
    ∃ c, lagrangeInterpolate [1, 1] [2, 3] = .ok c ∧ polyAt c 1 = 0 := by
  refine ⟨_, rfl, ?_⟩
  simp [otherPoints, timesFactor, polyAt_cons, polyAt_nil, List.zipIdx]

/-- C42, the part on Lagrange basis polynomials that holds: at a point outside the rows, multiplying
by the `m`-th value gives the value of every polynomial of degree below `2^k` that vanishes in all
rows but the one asked for (negative numbers count rows from the end). What is missing: points in the
rows, see `C42_basis_false`. -/
theorem C42_basis_partial {d : Domain} {j k : Nat} (hd : IsDomain d j k) (x : Fr) (rs : List Int)
    (m : Nat) (hm : m < rs.length) (hx : x ≠ d.omega ^ rs[m]) :
    ∃ l, (d.lIRange x (x ^ 2 ^ k) rs)[m]? = some l ∧
      ∀ c : List Fr, c.length = 2 ^ k →
        (∀ i < 2 ^ k, d.omega ^ i ≠ d.omega ^ rs[m] → polyAt c (d.omega ^ i) = 0) →
        polyAt c x = l * polyAt c (d.omega ^ rs[m]) :=
  hd.lIRange_spec x rs m hm hx

/-- C42 is false: in the rows themselves all basis polynomials are said to be zero, that of the first
row at its own point among them. -/
theorem C42_basis_false {d : Domain} {j k : Nat} :
    (∀ (x : Fr) (rs : List Int), x ^ 2 ^ k = 1 → ∀ m < rs.length,
      (d.lIRange x (x ^ 2 ^ k) rs)[m]? = some 0) ∧
    (IsDomain d j k → d.lIRange (d.omega ^ (0 : Int)) 1 [0] = [0]) := by
  refine ⟨fun x rs hx m hm => IsDomain.lIRange_domain x rs hx m hm, fun _ => ?_⟩
  unfold Domain.lIRange Domain.rotateOmega
  simp

example : ∃ c, lagrangeInterpolate [1, 2, 5] [7, 7, 8] = .ok c ∧ polyAt c 5 = 8 := by
  obtain ⟨c, h, -, hv⟩ := C42_interpolation_partial [1, 2, 5] [7, 7, 8] rfl (by decide +kernel)
  exact ⟨c, h, hv 2 (by simp) (by simp)⟩

example : ∃ q, kateDivision [6, 5, 1] (-2) = .ok q ∧ ∀ x, polyAt [6, 5, 1] x = (x - -2) * polyAt q x := by
  obtain ⟨q, h, -, hv⟩ := C42_division [6, 5, 1] (-2) (by simp)
  refine ⟨q, h, fun x => ?_⟩
  rw [hv x]
  have : polyAt [(6 : Fr), 5, 1] (-2) = 0 := by
    simp [polyAt_cons, polyAt_nil]; ring
  rw [this, add_zero]

/-! ### C43: commitments -/

/-- C43. Multi-exponentiation is the sum of the multiples. -/
theorem C43_multiexp (coeffs : List Fr) (bases : List M) (h : coeffs.length = bases.length) :
    bestMultiexp coeffs bases = .ok (((coeffs.zip bases).map fun p => p.1 • p.2).sum) := by
  unfold bestMultiexp
  rw [if_neg (by simp [h]), multiexpSerial_eq]

/-- C43. Parameters are made for every `k` up to 28 and every secret that is no root of unity of
order `2^k`; otherwise making them panics. -/
theorem C43_setup (g1 : M) (g2 : M₂) (k : Nat) (s : Fr) :
    (∃ p, Srs.setup g1 g2 k s = .ok p) ↔ k ≤ 28 ∧ s ^ 2 ^ k ≠ 1 := by
  rw [setup_eq]
  constructor
  · rintro ⟨p, h⟩
    split at h
    · exact absurd h (by simp)
    · split at h
      · exact absurd h (by simp)
      · next h1 h2 => exact ⟨by omega, h2⟩
  · rintro ⟨h1, h2⟩
    rw [if_neg (by omega), if_neg h2]
    exact ⟨_, rfl⟩

/-- C43. A commitment is the value of the polynomial at the secret, times the generator; committing
to the values in the rows gives the same. -/
theorem C43_commit (g1 : M) (g2 : M₂) (j k fuel : Nat) (s : Fr) (p : Srs M M₂) (d : Domain)
    (hp : Srs.setup g1 g2 k s = .ok p) (hj : 0 < j) (hj2 : j < 2 ^ 32)
    (hd : new false fuel j k = .ok d) (e : Nat)
    (he : IsLeast {e | k ≤ e ∧ 2 ^ k * (j - 1) ≤ 2 ^ e} e) (hs : e ≤ 28)
    (hf : 32 + 2 ^ (e - k) ≤ fuel) :
    (∀ c : List Fr, c.length ≤ 2 ^ k → p.commit c = .ok (polyAt c s • g1)) ∧
    (∀ values : List Fr, values.length = 2 ^ k →
      (d.lagrangeToCoeff values >>= p.commit) = p.commitLagrange values) := by
  have hset := (C43_setup g1 g2 k s).1 ⟨p, hp⟩
  rw [setup_eq, if_neg (by omega), if_neg hset.2] at hp
  obtain rfl := Except.ok.inj hp
  obtain ⟨d', h', hd', hw⟩ := new_domain false fuel j k e hj hj2 he hs hf
  rw [hd] at h'
  obtain rfl := Except.ok.inj h'
  refine ⟨fun c hc => commit_srsFor g1 g2 k s c hc, fun values hv => ?_⟩
  obtain ⟨c, h, hc, hval, -⟩ := C41_interpolates hd' values hv
  rw [h]
  show (srsFor g1 g2 k s).commit c = _
  rw [commit_srsFor g1 g2 k s c (by omega), ← commitLagrange_srsFor g1 g2 k hset.1 s hset.2 c hc]
  congr 1
  apply List.ext_getElem (by simp [hv])
  intro i h1 h2
  simp only [List.getElem_map, List.getElem_range]
  rw [← hval i h2, hw]; rfl

/-- C43. Parameters cut down to a smaller size are the parameters made for that size. -/
theorem C43_downsize (g1 : M) (g2 : M₂) (k k' : Nat) (s : Fr) (p : Srs M M₂)
    (hp : Srs.setup g1 g2 k s = .ok p) (hk : k' ≤ k) :
    p.downsize k' = Srs.setup g1 g2 k' s := by
  have hset := (C43_setup g1 g2 k s).1 ⟨p, hp⟩
  have hs' : s ^ 2 ^ k' ≠ 1 := by
    intro h
    apply hset.2
    rw [show k = k' + (k - k') by omega, pow_add, pow_mul, h, one_pow]
  rw [setup_eq, if_neg (by omega), if_neg hset.2] at hp
  obtain rfl := Except.ok.inj hp
  rw [downsize_srsFor g1 g2 k k' hset.1 hk s hset.2, setup_eq, if_neg (by omega), if_neg hs']

/-- C43. The secret the prover uses, 42, is fine for every size. -/
theorem C43_secret (g1 : M) (g2 : M₂) (k : Nat) (hk : k ≤ 28) :
    ∃ p, Srs.setup g1 g2 k 42 = .ok p := by
  rw [C43_setup]
  refine ⟨hk, fun h => ?_⟩
  have h28 : (42 : Fr) ^ 2 ^ 28 = 1 := by
    rw [show 28 = k + (28 - k) by omega, pow_add, pow_mul, h, one_pow]
  have h42 : ((42 : Nat) : Fr) ^ 2 ^ 28
      = ((Pratt.powMod P 300 42 (2 ^ 28) 1 % P : Nat) : Fr) :=
    pow_cast 42 (2 ^ 28) _ (by decide +kernel) rfl
  rw [show ((42 : Nat) : Fr) = 42 by norm_cast, h28] at h42
  have h1 : ((1 : Nat) : Fr) = ((Pratt.powMod P 300 42 (2 ^ 28) 1 % P : Nat) : Fr) := by
    rw [← h42, Nat.cast_one]
  rw [ZMod.natCast_eq_natCast_iff'] at h1
  exact absurd h1 (by decide +kernel)

/-- Committing to `1 + 2X + 3X²` with the prover's secret, in `Fr` as the group: `1 + 84 + 5292`. -/
example : ∃ p : Srs Fr Fr, Srs.setup (1 : Fr) (1 : Fr) 2 42 = .ok p ∧ p.commit [1, 2, 3] = .ok 5377 := by
  obtain ⟨p, hp⟩ := C43_secret (1 : Fr) (1 : Fr) 2 (by norm_num)
  obtain ⟨d, hd, -⟩ := C40_circuit_partial false 2 (by norm_num) 48 (by norm_num)
  have := (C43_commit 1 1 11 2 48 42 p d hp (by norm_num) (by norm_num) hd 6 (least_11 2) (by norm_num)
    (by norm_num)).1 [1, 2, 3] (by simp)
  refine ⟨p, hp, ?_⟩
  rw [this]
  congr 1

#print axioms C40_domain_partial
#print axioms C40_circuit_partial
#print axioms C40_domain_false
#print axioms C40_rejected_partial
#print axioms C41_transform
#print axioms C41_interpolates
#print axioms C41_extended
#print axioms C41_quotient
#print axioms C42_evaluate
#print axioms C42_division
#print axioms C42_interpolation_partial
#print axioms C42_interpolation_false
#print axioms C42_basis_partial
#print axioms C42_basis_false
#print axioms C43_multiexp
#print axioms C43_setup
#print axioms C43_commit
#print axioms C43_downsize
#print axioms C43_secret

end Verif.Props
