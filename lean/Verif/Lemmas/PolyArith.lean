import Verif.Lemmas.PolyLemmas

/-!
Division by a linear factor, interpolation and the evaluation of the Lagrange basis.
-/

namespace Verif

open Finset

theorem kateLoop_spec (b x : Fr) : ∀ (rs A q : List Fr) (tmp : Fr),
    polyAt q x * (x - b) = x * polyAt A x + tmp →
    q.length = A.length →
    (∃ tmp', polyAt (kateLoop (-b) rs tmp q) x * (x - b) = x * polyAt (rs.reverse ++ A) x + tmp') ∧
    (kateLoop (-b) rs tmp q).length = rs.length + A.length := by
  intro rs
  induction rs with
  | nil => intro A q tmp h hl; exact ⟨⟨tmp, by simpa [kateLoop] using h⟩, by simp [kateLoop, hl]⟩
  | cons r rs ih =>
    intro A q tmp h hl
    rw [kateLoop]
    have := ih (r :: A) ((r - tmp) :: q) ((r - tmp) * -b)
      (by rw [polyAt_cons, polyAt_cons, smul_eq_mul, smul_eq_mul]; linear_combination x * h)
      (by simp [hl])
    obtain ⟨h1, h2⟩ := this
    refine ⟨?_, by rw [h2]; simp; omega⟩
    simpa using h1

/-- `tmp'` does not depend on the point: it is fixed by the coefficients. -/
theorem kateLoop_tmp (b : Fr) : ∀ (rs A q : List Fr) (tmp : Fr),
    (∀ x, polyAt q x * (x - b) = x * polyAt A x + tmp) →
    ∃ tmp', ∀ x, polyAt (kateLoop (-b) rs tmp q) x * (x - b)
      = x * polyAt (rs.reverse ++ A) x + tmp' := by
  intro rs
  induction rs with
  | nil => intro A q tmp h; exact ⟨tmp, by simpa [kateLoop] using h⟩
  | cons r rs ih =>
    intro A q tmp h
    rw [kateLoop]
    have := ih (r :: A) ((r - tmp) :: q) ((r - tmp) * -b)
      (by intro x; rw [polyAt_cons, polyAt_cons, smul_eq_mul, smul_eq_mul]
          linear_combination x * h x)
    simpa using this

theorem kateDivision_spec (a : List Fr) (b : Fr) (ha : a ≠ []) :
    ∃ q, kateDivision a b = .ok q ∧ q.length + 1 = a.length ∧
      ∀ x, polyAt a x = (x - b) * polyAt q x + polyAt a b := by
  obtain ⟨c, t, rfl⟩ := List.exists_cons_of_ne_nil ha
  have htake : (c :: t).reverse.take ((c :: t).length - 1) = t.reverse := by
    rw [List.reverse_cons, List.length_cons, Nat.add_sub_cancel,
      List.take_left' (by simp)]
  refine ⟨_, by unfold kateDivision; rw [if_neg (by simp), htake], ?_, ?_⟩
  · have := (kateLoop_spec b 0 t.reverse [] [] 0 (by simp [polyAt_nil]) rfl).2
    rw [this]; simp
  · obtain ⟨tmp, h⟩ := kateLoop_tmp b t.reverse [] [] 0 (by intro x; simp [polyAt_nil])
    simp only [List.reverse_reverse, List.append_nil] at h
    intro x
    have hx := h x
    have hb := h b
    rw [polyAt_cons, polyAt_cons, smul_eq_mul, smul_eq_mul]
    linear_combination hb - hx

theorem kateDivision_empty (b : Fr) : kateDivision [] b = .error .overflow := rfl

/-! ### Interpolation -/

theorem polyAt_append_zero (c : List Fr) (x : Fr) : polyAt (c ++ [0]) x = polyAt c x := by
  induction c with
  | nil => rw [List.nil_append, polyAt_cons, polyAt_nil]; simp
  | cons a c ih => rw [List.cons_append, polyAt_cons, polyAt_cons, ih]

theorem polyAt_combine (u v x : Fr) : ∀ (a b : List Fr), a.length = b.length →
    polyAt ((a.zip b).map fun (p : Fr × Fr) => p.1 * u + p.2 * v) x
      = polyAt a x * u + polyAt b x * v := by
  intro a
  induction a with
  | nil =>
    intro b hb
    have : b = [] := List.length_eq_zero_iff.1 hb.symm
    subst this; simp [polyAt_nil]
  | cons s a ih =>
    intro b hb
    obtain ⟨t, b', rfl⟩ := List.exists_cons_of_length_eq_add_one (by simpa using hb.symm)
    rw [List.zip_cons_cons, List.map_cons, polyAt_cons, polyAt_cons, polyAt_cons,
      ih b' (by simpa using hb)]
    simp only [smul_eq_mul]
    ring

theorem timesFactor_spec (tmp : List Fr) (denom xk x : Fr) :
    polyAt (timesFactor tmp denom xk) x = polyAt tmp x * (denom * (x - xk)) ∧
    (timesFactor tmp denom xk).length = tmp.length + 1 := by
  constructor
  · unfold timesFactor
    rw [polyAt_combine _ _ _ _ _ (by simp), polyAt_append_zero, polyAt_cons, smul_eq_mul]
    ring
  · simp [timesFactor]

theorem basis_spec (xj x : Fr) : ∀ (others tmp : List Fr),
    polyAt (others.foldl (fun tmp xk => timesFactor tmp (xj - xk)⁻¹ xk) tmp) x
      = polyAt tmp x * (others.map fun xk => (xj - xk)⁻¹ * (x - xk)).prod ∧
    (others.foldl (fun tmp xk => timesFactor tmp (xj - xk)⁻¹ xk) tmp).length
      = tmp.length + others.length := by
  intro others
  induction others with
  | nil => intro tmp; simp
  | cons xk others ih =>
    intro tmp
    have h := timesFactor_spec tmp (xj - xk)⁻¹ xk x
    obtain ⟨h1, h2⟩ := ih (timesFactor tmp (xj - xk)⁻¹ xk)
    refine ⟨?_, ?_⟩
    · rw [List.foldl_cons, h1, h.1, List.map_cons, List.prod_cons]; ring
    · rw [List.foldl_cons, h2, h.2]; simp; omega

theorem final_spec (x : Fr) : ∀ (polys : List (List Fr × Fr)) (final : List Fr),
    (∀ p ∈ polys, p.1.length = final.length) →
    polyAt (polys.foldl (fun final p => (final.zip p.1).map fun c => c.1 + c.2 * p.2) final) x
      = polyAt final x + (polys.map fun p => polyAt p.1 x * p.2).sum ∧
    (polys.foldl (fun final p => (final.zip p.1).map fun c => c.1 + c.2 * p.2) final).length
      = final.length := by
  intro polys
  induction polys with
  | nil => intro final _; simp
  | cons p polys ih =>
    intro final hl
    have hp := hl p (by simp)
    have hlen : ((final.zip p.1).map fun (c : Fr × Fr) => c.1 + c.2 * p.2).length
        = final.length := by simp [hp]
    obtain ⟨h1, h2⟩ := ih _ (fun q hq => by rw [hlen]; exact hl q (by simp [hq]))
    refine ⟨?_, by rw [List.foldl_cons, h2, hlen]⟩
    rw [List.foldl_cons, h1]
    have := polyAt_combine 1 p.2 x final p.1 hp.symm
    simp only [mul_one] at this
    rw [this, List.map_cons, List.sum_cons]; ring

theorem mem_otherPoints (points : List Fr) (j : Nat) (y : Fr) :
    y ∈ otherPoints points j ↔ ∃ i, i ≠ j ∧ points[i]? = some y := by
  unfold otherPoints
  rw [List.mem_map]
  constructor
  · rintro ⟨⟨a, i⟩, h, rfl⟩
    rw [List.mem_filter, List.mem_zipIdx_iff_getElem?] at h
    exact ⟨i, by simpa using h.2, h.1⟩
  · rintro ⟨i, h1, h2⟩
    exact ⟨(y, i), by rw [List.mem_filter, List.mem_zipIdx_iff_getElem?]; exact ⟨h2, by simpa using h1⟩,
      rfl⟩

theorem length_otherPoints (points : List Fr) (j : Nat) (hj : j < points.length) :
    (otherPoints points j).length + 1 = points.length := by
  unfold otherPoints
  rw [List.length_map]
  have h := List.length_eq_length_filter_add (l := points.zipIdx) (fun p => decide (p.2 = j))
  have h1 : (points.zipIdx.filter fun p => decide (p.2 = j)).length = 1 := by
    have : ∀ (l : List Fr) (s : Nat), s ≤ j → j < s + l.length →
        ((l.zipIdx s).filter fun p => decide (p.2 = j)).length = 1 := by
      intro l
      induction l with
      | nil => intro s h1 h2; simp at h2; omega
      | cons a l ih =>
        intro s h1 h2
        rw [List.zipIdx_cons, List.filter_cons]
        by_cases hs : s = j
        · subst hs
          rw [if_pos (by simp), List.length_cons]
          have : (l.zipIdx (s + 1)).filter (fun p => decide (p.2 = s)) = [] := by
            rw [List.filter_eq_nil_iff]
            intro p hp
            have := List.le_snd_of_mem_zipIdx hp
            simp; omega
          rw [this]; rfl
        · rw [if_neg (by simpa using hs)]
          exact ih (s + 1) (by omega) (by simp at h2; omega)
    exact this points 0 (by omega) (by omega)
  rw [h1, List.length_zipIdx] at h
  have h2 : (points.zipIdx.filter fun p => decide (p.2 ≠ j)).length
      = (points.zipIdx.filter fun p => !decide (p.2 = j)).length := by
    congr 2; funext p; simp
  rw [h2]; omega

theorem sum_single (f : Nat → Fr) (n i : Nat) (hi : i < n) (h0 : ∀ j < n, j ≠ i → f j = 0) :
    ((List.range n).map f).sum = f i := by
  have : ((List.range n).map f).sum = ∑ j ∈ range n, f j := by
    rw [Finset.sum_range, ← List.sum_ofFn, List.ofFn_eq_map, ← List.map_coe_finRange_eq_range, List.map_map]
    rfl
  rw [this]
  exact sum_eq_single i (fun j hj hne => h0 j (mem_range.1 hj) hne)
    (fun h => absurd (mem_range.2 hi) h)

theorem lagrangeInterpolate_spec (points evals : List Fr) (hl : points.length = evals.length)
    (hn : points.Nodup) :
    ∃ c, lagrangeInterpolate points evals = .ok c ∧ c.length = points.length ∧
      ∀ (i : Nat) (h1 : i < points.length) (h2 : i < evals.length),
        polyAt c points[i] = evals[i] := by
  unfold lagrangeInterpolate
  rw [if_neg (by simp [hl])]
  split
  · next h1 =>
    refine ⟨_, rfl, by simp [h1], ?_⟩
    intro i hi hi2
    have : i = 0 := by omega
    subst this
    rw [polyAt_cons, polyAt_nil, getD_lt _ _ hi2]; simp
  · refine ⟨_, rfl, ?_, ?_⟩
    · have := (final_spec 0 ((points.zipIdx.map fun p =>
        (otherPoints points p.2).foldl (fun tmp xk => timesFactor tmp (p.1 - xk)⁻¹ xk) [1]).zip evals)
        (List.replicate points.length 0) ?_).2
      · rw [this]; simp
      · intro p hp
        have hp1 := (List.of_mem_zip hp).1
        rw [List.mem_map] at hp1
        obtain ⟨⟨a, j⟩, hj, he⟩ := hp1
        rw [← he, (basis_spec a 0 _ [1]).2, List.length_replicate]
        rw [List.mem_zipIdx_iff_getElem?] at hj
        have := length_otherPoints points j (List.getElem?_eq_some_iff.1 hj).1
        simp only [List.length_cons, List.length_nil] at *
        omega
    · intro i hi hi2
      rw [(final_spec points[i] _ (List.replicate points.length 0) ?_).1]
      · have hz : polyAt (List.replicate points.length (0 : Fr)) points[i] = 0 := by
          rw [polyAt_eq]
          apply sum_eq_zero
          intro a _
          rw [List.getD_eq_getElem?_getD, List.getElem?_replicate]
          split <;> simp
        rw [hz, zero_add]
        have hmap : (((points.zipIdx.map fun p =>
            (otherPoints points p.2).foldl (fun tmp xk => timesFactor tmp (p.1 - xk)⁻¹ xk) [1]).zip
            evals).map fun p => polyAt p.1 points[i] * p.2)
            = (List.range points.length).map fun j =>
              ((otherPoints points j).map fun xk =>
                (points.getD j 0 - xk)⁻¹ * (points[i] - xk)).prod * evals.getD j 0 := by
          apply List.ext_getElem
          · simp [hl]
          · intro j h1 h2
            have hj : j < points.length := by simpa using h2
            simp only [List.getElem_map, List.getElem_zip, List.getElem_zipIdx, List.getElem_range,
              Nat.zero_add]
            rw [(basis_spec _ _ _ [1]).1, getD_lt _ _ hj, getD_lt _ _ (by omega), polyAt_cons,
              polyAt_nil]
            simp
        rw [hmap, sum_single _ _ i hi]
        · have : ((otherPoints points i).map fun xk =>
              (points.getD i 0 - xk)⁻¹ * (points[i] - xk)).prod = 1 := by
            apply List.prod_eq_one
            intro y hy
            rw [List.mem_map] at hy
            obtain ⟨xk, hk, rfl⟩ := hy
            rw [mem_otherPoints] at hk
            obtain ⟨m, hm, he⟩ := hk
            obtain ⟨hml, he⟩ := List.getElem?_eq_some_iff.1 he
            rw [getD_lt _ _ hi]
            apply inv_mul_cancel₀
            rw [sub_ne_zero, ← he]
            intro hc
            exact hm ((List.Nodup.getElem_inj_iff hn).1 hc.symm)
          rw [this, one_mul, getD_lt _ _ hi2]
        · intro j hj hne
          have : (0 : Fr) ∈ (otherPoints points j).map fun xk =>
              (points.getD j 0 - xk)⁻¹ * (points[i] - xk) := by
            rw [List.mem_map]
            refine ⟨points[i], ?_, by simp⟩
            rw [mem_otherPoints]
            exact ⟨i, fun h => hne h.symm, List.getElem?_eq_getElem hi⟩
          rw [List.prod_eq_zero this, zero_mul]
      · intro p hp
        have hp1 := (List.of_mem_zip hp).1
        rw [List.mem_map] at hp1
        obtain ⟨⟨a, j⟩, hj, he⟩ := hp1
        rw [← he, (basis_spec a 0 _ [1]).2, List.length_replicate]
        rw [List.mem_zipIdx_iff_getElem?] at hj
        have := length_otherPoints points j (List.getElem?_eq_some_iff.1 hj).1
        simp only [List.length_cons, List.length_nil] at *
        omega

/-! ### The Lagrange basis -/

namespace IsDomain

variable {d : Domain} {j k : Nat}

theorem omega_ne_zero (h : IsDomain d j k) : d.omega ≠ 0 := h.omega.ne_zero (by positivity)

theorem rotateOmega_eq (h : IsDomain d j k) (v : Fr) (r : Int) :
    d.rotateOmega v r = v * d.omega ^ r := by
  unfold Domain.rotateOmega
  have hinv : d.omegaInv = d.omega⁻¹ := eq_inv_of_mul_eq_one_right h.omegaInv
  split
  · next hr =>
    conv_rhs => rw [show r = ((r.toNat : Nat) : Int) by omega, zpow_natCast]
  · next hr =>
    conv_rhs => rw [show r = -((r.natAbs : Nat) : Int) by omega, zpow_neg, zpow_natCast]
    rw [hinv, inv_pow]

/-- A rotation is the same as its residue modulo the number of rows. -/
theorem zpow_mod (h : IsDomain d j k) (r : Int) :
    d.omega ^ r = d.omega ^ ((r % (2 ^ k : Nat)).toNat) := by
  have hpos : (0 : Int) < ((2 ^ k : Nat) : Int) := by positivity
  have hm := Int.emod_nonneg r (ne_of_gt hpos)
  conv_lhs => rw [← Int.emod_add_mul_ediv r (2 ^ k : Nat), zpow_add₀ h.omega_ne_zero, zpow_mul,
    zpow_natCast, h.omega.pow_eq_one, one_zpow, mul_one,
    show r % (2 ^ k : Nat) = (((r % (2 ^ k : Nat)).toNat : Nat) : Int) by omega, zpow_natCast]

theorem basis_at (h : IsDomain d j k) (c : List Fr) (hc : c.length = 2 ^ k) (x : Fr) (r : Nat)
    (hr : r < 2 ^ k) (hx : x ≠ d.omega ^ r)
    (h0 : ∀ i < 2 ^ k, i ≠ r → polyAt c (d.omega ^ i) = 0) :
    polyAt c x = (x - d.omega ^ r)⁻¹ * ((x ^ 2 ^ k - 1) * d.barycentricWeight) * d.omega ^ r
      * polyAt c (d.omega ^ r) := by
  have hu := h.lagrangeToCoeff_unique c hc
  rw [h.lagrangeToCoeff_ok _ (by simp)] at hu
  have hu := Except.ok.inj hu
  have hcoef : ∀ b < 2 ^ k, c.getD b 0
      = d.ifftDivisor * (polyAt c (d.omega ^ r) * (d.omegaInv ^ r) ^ b) := by
    intro b hb
    conv_lhs => rw [← hu, getD_map_range _ _ _ hb]
    rw [smul_eq_mul, polyAt_eq, List.length_map, List.length_range]
    congr 1
    rw [sum_eq_single r]
    · rw [getD_map_range _ _ _ hr, smul_eq_mul, mul_comm, ← pow_mul, ← pow_mul, mul_comm b]
    · intro i hi hne
      rw [getD_map_range _ _ _ (mem_range.1 hi), h0 i (mem_range.1 hi) hne, smul_zero]
    · intro hn; exact absurd (mem_range.2 hr) hn
  have hw : d.omega ^ r * d.omegaInv ^ r = 1 := by rw [← mul_pow, h.omegaInv, one_pow]
  have hweight : d.barycentricWeight = d.ifftDivisor := by
    have h1 := h.weight
    have h2 := h.divisor
    exact mul_right_cancel₀ (Domain.two_pow_ne k) (h1.trans h2.symm)
  have hsum : polyAt c x = d.ifftDivisor * polyAt c (d.omega ^ r)
      * ∑ b ∈ range (2 ^ k), (x * d.omegaInv ^ r) ^ b := by
    conv_lhs => rw [polyAt_eq, hc]
    rw [mul_sum]
    apply sum_congr rfl
    intro b hb
    rw [hcoef b (mem_range.1 hb), smul_eq_mul, mul_pow]; ring
  have hinvn : (d.omegaInv ^ r) ^ 2 ^ k = 1 := by
    rw [← pow_mul, mul_comm, pow_mul, h.omegaInv_primitive.pow_eq_one, one_pow]
  have hg := geom_sum_mul (x * d.omegaInv ^ r) (2 ^ k)
  rw [mul_pow, hinvn, mul_one] at hg
  have hxne : x - d.omega ^ r ≠ 0 := sub_ne_zero.2 hx
  have hS : (∑ b ∈ range (2 ^ k), (x * d.omegaInv ^ r) ^ b)
      = (x - d.omega ^ r)⁻¹ * (x ^ 2 ^ k - 1) * d.omega ^ r := by
    generalize (∑ b ∈ range (2 ^ k), (x * d.omegaInv ^ r) ^ b) = S at hg
    generalize x ^ 2 ^ k = X at hg
    apply mul_left_cancel₀ hxne
    rw [← mul_assoc, ← mul_assoc, mul_inv_cancel₀ hxne]
    linear_combination d.omega ^ r * hg - S * x * hw
  rw [hsum, hS, hweight]; ring

theorem lIRange_spec (h : IsDomain d j k) (x : Fr) (rs : List Int) (m : Nat) (hm : m < rs.length)
    (hx : x ≠ d.omega ^ rs[m]) :
    ∃ l, (d.lIRange x (x ^ 2 ^ k) rs)[m]? = some l ∧
      ∀ c : List Fr, c.length = 2 ^ k →
        (∀ i < 2 ^ k, d.omega ^ i ≠ d.omega ^ rs[m] → polyAt c (d.omega ^ i) = 0) →
        polyAt c x = l * polyAt c (d.omega ^ rs[m]) := by
  unfold Domain.lIRange
  refine ⟨d.rotateOmega ((x - d.rotateOmega 1 rs[m])⁻¹ * ((x ^ 2 ^ k - 1) * d.barycentricWeight)) rs[m],
    ?_, ?_⟩
  · rw [List.getElem?_map, List.getElem?_eq_getElem (by simpa using hm)]
    simp
  · intro c hc h0
    have hpos : (0 : Int) < ((2 ^ k : Nat) : Int) := by positivity
    have hlt := Int.emod_lt_of_pos rs[m] hpos
    have hnn := Int.emod_nonneg rs[m] (ne_of_gt hpos)
    rw [h.rotateOmega_eq, h.rotateOmega_eq, one_mul]
    rw [h.zpow_mod] at hx h0 ⊢
    exact h.basis_at c hc x _ (by omega) hx
      (fun i hi hne => h0 i hi (fun he => hne (h.omega.pow_inj hi (by omega) he)))

/-- On the domain itself the result is zero, whatever the rotation. -/
theorem lIRange_domain (x : Fr) (rs : List Int) (hx : x ^ 2 ^ k = 1) (m : Nat)
    (hm : m < rs.length) : (d.lIRange x (x ^ 2 ^ k) rs)[m]? = some 0 := by
  unfold Domain.lIRange
  rw [List.getElem?_map, List.getElem?_eq_getElem (by simpa using hm)]
  simp only [hx, sub_self, zero_mul, mul_zero, Option.map_some]
  unfold Domain.rotateOmega
  simp

end IsDomain

end Verif
