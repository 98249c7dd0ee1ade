import Verif.Lemmas.ShplonkComplete
import Verif.Lemmas.PiopPoly

/-! A false claim passes the opening check only with challenges in small sets. -/

namespace Verif.Shplonk

open Plonk Spec Polynomial

section polys

theorem polyAt_eval {α : Type} (l : List α) (f : α → Fr[X]) (y x : Fr) :
    (polyAt (l.map f) y).eval x = polyAt (l.map fun a => (f a).eval x) y := by
  induction l with
  | nil => simp [polyAt_nil]
  | cons a l ih =>
    rw [List.map_cons, List.map_cons, polyAt_cons, polyAt_cons, eval_add, eval_smul, ih]

theorem polyAt_natDegree {α : Type} (l : List α) (f : α → Fr[X]) (y : Fr) {D : Nat}
    (h : ∀ a ∈ l, (f a).natDegree ≤ D) : (polyAt (l.map f) y).natDegree ≤ D := by
  induction l with
  | nil => simp [polyAt_nil]
  | cons a l ih =>
    rw [List.map_cons, polyAt_cons]
    exact natDegree_add_le_of_degree_le (h a (by simp))
      (le_trans (natDegree_smul_le _ _) (ih fun a ha => h a (List.mem_cons_of_mem _ ha)))

theorem sub_degree {p q : Fr[X]} {D : Nat} (hp : p.natDegree ≤ D) (hq : q.natDegree ≤ D) :
    (p - q).natDegree ≤ D :=
  le_trans (natDegree_sub_le p q) (max_le hp hq)

/-- The polynomial with the given roots. -/
noncomputable def vanishingPoly (roots : List Fr) : Fr[X] := (roots.map fun p => X - C p).prod

theorem vanishingPoly_eval (roots : List Fr) (z : Fr) : (vanishingPoly roots).eval z = vanishing roots z := by
  unfold vanishingPoly
  rw [vanishing_eq]
  induction roots with
  | nil => simp
  | cons r rs ih => rw [List.map_cons, List.prod_cons, List.map_cons, List.prod_cons, eval_mul, ih]; simp

theorem vanishingPoly_degree (roots : List Fr) : (vanishingPoly roots).natDegree ≤ roots.length := by
  unfold vanishingPoly
  induction roots with
  | nil => simp
  | cons r rs ih =>
    rw [List.map_cons, List.prod_cons, List.length_cons]
    refine le_trans natDegree_mul_le ?_
    rw [natDegree_X_sub_C]
    omega

/-- The roots of a list of coefficients. -/
noncomputable def rootsOf (p : Fr[X]) : Finset Fr := p.roots.toFinset

theorem rootsOf_card (p : Fr[X]) {D : Nat} (h : p.natDegree ≤ D) : (rootsOf p).card ≤ D :=
  le_trans (Multiset.toFinset_card_le _) (le_trans (card_roots' p) h)

theorem mem_rootsOf {p : Fr[X]} {x y : Fr} (hy : p.eval y ≠ 0) (hx : p.eval x = 0) : x ∈ rootsOf p := by
  unfold rootsOf
  rw [Multiset.mem_toFinset, mem_roots']
  refine ⟨?_, hx⟩
  rintro rfl
  simp at hy

theorem mem_rootsOf' {p : Fr[X]} {x : Fr} (hp : p ≠ 0) (hx : p.eval x = 0) : x ∈ rootsOf p := by
  unfold rootsOf
  rw [Multiset.mem_toFinset, mem_roots']
  exact ⟨hp, hx⟩

theorem toPoly_ne_zero {l : List Fr} {a : Fr} (ha : a ∈ l) (h : a ≠ 0) : toPoly l ≠ 0 := by
  obtain ⟨i, hi, rfl⟩ := List.mem_iff_getElem.1 ha
  intro h0
  have : (toPoly l).coeff i = l[i] := by
    unfold toPoly
    rw [finsetSum_coeff]
    simp only [coeff_C_mul, coeff_X_pow]
    rw [Finset.sum_eq_single i]
    · simp [List.getD, hi]
    · intro b _ hb
      rw [if_neg (Ne.symm hb), mul_zero]
    · intro hn
      exact absurd (Finset.mem_range.2 hi) hn
  rw [h0, coeff_zero] at this
  exact h this.symm

end polys

variable {ρ : Type} [DecidableEq ρ]

/-- The combination of the objects of a set. -/
noncomputable def numerPoly (y : Fr) (s : RotationSet (List Fr)) : Fr[X] :=
  polyAt (s.objects.map fun o => toPoly o.1 - toPoly (low s.points o.2)) y

theorem numerPoly_eval (y : Fr) (s : RotationSet (List Fr)) (x : Fr) : (numerPoly y s).eval x = numer y s x x := by
  unfold numerPoly numer
  rw [polyAt_eval]
  congr 1
  apply List.map_congr_left
  intro o _
  rw [eval_sub, toPoly_eval, toPoly_eval]

/-- What the second challenge must make vanish. -/
noncomputable def wholePoly (sets : List (RotationSet (List Fr))) (sup : List Fr) (y v : Fr) (h1 : List Fr) : Fr[X] :=
  polyAt (sets.map fun s => vanishingPoly (diffs sup s.points) * numerPoly y s) v - vanishingPoly sup * toPoly h1

theorem wholePoly_eval (sets : List (RotationSet (List Fr))) (sup : List Fr) (y v : Fr) (h1 : List Fr) (u : Fr) :
    (wholePoly sets sup y v h1).eval u = linear sup y v sets u u - vanishing sup u * polyAt h1 u := by
  unfold wholePoly linear
  rw [eval_sub, polyAt_eval, eval_mul, vanishingPoly_eval, toPoly_eval]
  congr 2
  apply List.map_congr_left
  intro s _
  rw [eval_mul, vanishingPoly_eval, numerPoly_eval]

/-- What the secret must make vanish. -/
noncomputable def finalPoly (s0 : RotationSet (List Fr)) (rest : List (RotationSet (List Fr))) (sup : List Fr)
    (y v u : Fr) (h1 h2 : List Fr) : Fr[X] :=
  (X - C u) * toPoly h2 - (C (vanishing (diffs sup s0.points) u)⁻¹ *
    polyAt ((s0 :: rest).map fun s => C (vanishing (diffs sup s.points) u) *
      polyAt (s.objects.map fun o => toPoly o.1 - C (polyAt (low s.points o.2) u)) y) v -
    C (vanishing s0.points u) * toPoly h1)

theorem finalPoly_eval (s0 : RotationSet (List Fr)) (rest : List (RotationSet (List Fr))) (sup : List Fr)
    (y v u : Fr) (h1 h2 : List Fr) (s : Fr) :
    (finalPoly s0 rest sup y v u h1 h2).eval s = (s - u) * polyAt h2 s -
      ((vanishing (diffs sup s0.points) u)⁻¹ * linear sup y v (s0 :: rest) s u -
        vanishing s0.points u * polyAt h1 s) := by
  unfold finalPoly linear
  simp only [eval_sub, eval_mul, eval_C, eval_X, toPoly_eval]
  rw [polyAt_eval]
  congr 4
  apply List.map_congr_left
  intro st _
  rw [eval_mul, eval_C, polyAt_eval]
  unfold numer
  congr 2
  apply List.map_congr_left
  intro o _
  rw [eval_sub, toPoly_eval, eval_C]

theorem finalPoly_degree (s0 : RotationSet (List Fr)) (rest : List (RotationSet (List Fr))) (sup : List Fr)
    (y v u : Fr) {h1 h2 : List Fr} {N : Nat} (hp : ∀ s ∈ s0 :: rest, ∀ o ∈ s.objects, o.1.length ≤ N)
    (l1 : h1.length ≤ N) (l2 : h2.length ≤ N) : (finalPoly s0 rest sup y v u h1 h2).natDegree ≤ N := by
  unfold finalPoly
  refine sub_degree ?_ (sub_degree ?_ ?_)
  · by_cases h0 : h2 = []
    · rw [h0]
      simp [toPoly]
    · have hpos : 0 < h2.length := List.length_pos_iff.2 h0
      refine le_trans natDegree_mul_le ?_
      rw [natDegree_X_sub_C]
      have := toPoly_degree h2 (D := N - 1) (by omega)
      omega
  · refine le_trans (natDegree_C_mul_le _ _) (polyAt_natDegree _ _ _ fun s hs => ?_)
    refine le_trans (natDegree_C_mul_le _ _) (polyAt_natDegree _ _ _ fun o ho => ?_)
    refine sub_degree (toPoly_degree _ (by have := hp s hs o ho; omega)) ?_
    rw [natDegree_C]; omega
  · exact le_trans (natDegree_C_mul_le _ _) (toPoly_degree _ (by omega))

theorem wholePoly_degree {sets : List (RotationSet (List Fr))} {sup : List Fr} (y v : Fr) {h1 : List Fr} {N : Nat}
    (hn : sup.Nodup) (hnd : ∀ s ∈ sets, s.points.Nodup) (hin : ∀ s ∈ sets, ∀ p ∈ s.points, p ∈ sup)
    (hev : ∀ s ∈ sets, ∀ o ∈ s.objects, o.2.length = s.points.length)
    (hp : ∀ s ∈ sets, ∀ o ∈ s.objects, o.1.length ≤ N) (l1 : h1.length ≤ N) :
    (wholePoly sets sup y v h1).natDegree ≤ sup.length + N := by
  unfold wholePoly
  refine sub_degree (polyAt_natDegree _ _ _ fun s hs => ?_) ?_
  · have hsplit : s.points.length + (diffs sup s.points).length = sup.length := by
      have h1 : (sup.filter fun p => p ∈ s.points).Perm s.points := by
        rw [List.perm_ext_iff_of_nodup (hn.filter _) (hnd s hs)]
        intro a
        rw [List.mem_filter, decide_eq_true_eq]
        exact ⟨fun h => h.2, fun h => ⟨hin s hs a h, h⟩⟩
      have h2 := (List.filter_append_perm (fun p => decide (p ∈ s.points)) sup).length_eq
      rw [List.length_append, h1.length_eq] at h2
      unfold diffs
      convert h2 using 4
      simp
    refine le_trans natDegree_mul_le ?_
    have h1 := vanishingPoly_degree (diffs sup s.points)
    have h2 : (numerPoly y s).natDegree ≤ max N s.points.length := by
      refine polyAt_natDegree _ _ _ fun o ho => ?_
      refine sub_degree ?_ ?_
      · exact toPoly_degree _ (by have := hp s hs o ho; omega)
      · have := (low_spec s.points o.2 (hev s hs o ho) (hnd s hs)).2.1
        exact toPoly_degree _ (by omega)
    rcases le_total N s.points.length with h | h
    · rw [max_eq_right h] at h2; omega
    · rw [max_eq_left h] at h2; omega
  · refine le_trans natDegree_mul_le ?_
    have hv := vanishingPoly_degree sup
    have h2 := toPoly_degree (c := h1) (D := N) (by omega)
    omega

variable {G : Type} [AddCommGroup G] [Module Fr G]
variable {G₂ GT : Type} [AddCommGroup G₂] [Module Fr G₂] [AddCommGroup GT] [Module Fr GT] [DecidableEq GT]

/-- What acceptance says about the polynomials. -/
theorem accepts_final (pairing : G →ₗ[Fr] G₂ →ₗ[Fr] GT) (g : G) (g2 : G₂) (hpair : pairing g g2 ≠ 0) (s : Fr)
    {ps : List (Claim ρ (List Fr))} {cs : List (Claim ρ (Committed G))} (hne : ps ≠ [])
    (hsame : List.Forall₂ (SameClaim s g) ps cs) {sets : List (RotationSet (List Fr))} {sup : List Fr}
    (hp : intermediateSets ps = .ok (sets, sup)) (y v u : Fr) (h1 h2 : List Fr)
    (ha : accepts pairing g g2 (s • g2) cs y v (polyAt h1 s • g) u (polyAt h2 s • g) = .ok true) :
    ∃ s0 rest, sets = s0 :: rest ∧ vanishing (diffs sup s0.points) u ≠ 0 ∧
      (finalPoly s0 rest sup y v u h1 h2).eval s = 0 := by
  obtain ⟨e1, e2, e3⟩ := joint_maps hsame
  obtain ⟨jsets, sup', j1, j2⟩ := intermediateSets_ok (joint ps cs)
  have p1 := intermediateSets_map Prod.fst _ _ _ j1
  have v1 := intermediateSets_map Prod.snd _ _ _ j1
  rw [e1, hp] at p1
  obtain ⟨rfl, rfl⟩ := Prod.mk.inj (Except.ok.inj p1)
  rw [e2] at v1
  obtain ⟨sets', sup', p1', p2⟩ := intermediateSets_ok ps
  rw [hp] at p1'
  obtain ⟨rfl, rfl⟩ := Prod.mk.inj (Except.ok.inj p1')
  obtain ⟨sets', sup', v1', v2⟩ := intermediateSets_ok cs
  rw [v1] at v1'
  obtain ⟨rfl, rfl⟩ := Prod.mk.inj (Except.ok.inj v1')
  have hobj : ∀ st ∈ jsets, ∀ o ∈ st.objects, valueOf o.1.2 = polyAt o.1.1 s • g := by
    intro st hst o ho
    obtain ⟨r, hr⟩ := j2.object st hst o ho
    obtain ⟨q, hq, -, hqo⟩ := hr.object
    rw [← hqo]
    exact e3 q hq
  have hsne := sets_ne p2 hne
  cases jsets with
  | nil => exact absurd rfl hsne
  | cons s0 rest =>
    rw [List.map_cons] at v1 v2
    have hver := verify_ok (g0 := g) v1 v2 y v (polyAt h1 s • g) u (polyAt h2 s • g)
    refine ⟨_, _, List.map_cons, ?_, ?_⟩
    · intro hz
      unfold accepts at ha
      rw [hver.1 hz] at ha
      simp [bind, Except.bind] at ha
    · have hz : vanishing (diffs sup s0.points) u ≠ 0 := by
        intro hz
        unfold accepts at ha
        rw [hver.1 hz] at ha
        simp [bind, Except.bind] at ha
      obtain ⟨left, right, w1, w2, w3⟩ := hver.2 hz
      unfold accepts at ha
      rw [w1] at ha
      simp only [bind, Except.bind] at ha
      rw [check_eq, w2, w3, rightValue_eq s g sup h1 y v u s0 rest hobj] at ha
      have ha := of_decide_eq_true (Except.ok.inj ha)
      rw [smul_smul, smul_smul, ← add_smul, ← sub_smul, map_smul, LinearMap.smul_apply] at ha
      rcases smul_eq_zero.1 ha with h0 | h0
      · rw [finalPoly_eval, ← List.map_cons (f := RotationSet.map Prod.fst)]
        show (s - u) * polyAt h2 s - ((vanishing (diffs sup s0.points) u)⁻¹ * _ - vanishing s0.points u * _) = 0
        rw [← h0]
        ring
      · exact absurd h0 hpair

/-- The whole argument. -/
theorem open_sound {ps : List (Claim ρ (List Fr))} (hfalse : ∃ q ∈ ps, ¬ ClaimTrue q) (hc : Consistent ps)
    (hf : Functional ps) {N : Nat} (hl : ∀ q ∈ ps, q.object.length ≤ N) (pts : List Fr)
    (hpts : ∀ q ∈ ps, q.point ∈ pts) (h1 : Fr → Fr → List Fr) (l1 : ∀ y v, (h1 y v).length ≤ N)
    (h2 : Fr → Fr → Fr → List Fr) (l2 : ∀ y v u, (h2 y v u).length ≤ N) :
    ∃ (By : Finset Fr) (Bv : Fr → Finset Fr) (Bu : Fr → Fr → Finset Fr) (Bs : Fr → Fr → Fr → Finset Fr),
      By.card < ps.length ∧ (∀ y, (Bv y).card < ps.length) ∧ (∀ y v, (Bu y v).card ≤ pts.length + N) ∧
      (∀ y v u, (Bs y v u).card ≤ N) ∧
      ∀ y v u s, ∀ (pairing : G →ₗ[Fr] G₂ →ₗ[Fr] GT) (g : G) (g2 : G₂), pairing g g2 ≠ 0 →
        ∀ cs : List (Claim ρ (Committed G)), List.Forall₂ (SameClaim s g) ps cs →
        accepts pairing g g2 (s • g2) cs y v (polyAt (h1 y v) s • g) u (polyAt (h2 y v u) s • g) = .ok true →
        y ∈ By ∨ v ∈ Bv y ∨ u ∈ Bu y v ∨ s ∈ Bs y v u := by
  obtain ⟨q, hq, hqf⟩ := hfalse
  obtain ⟨sets, sup, p1, p2⟩ := intermediateSets_ok ps
  have hne : ps ≠ [] := by rintro rfl; simp at hq
  have hsup : sup.length ≤ pts.length := by
    refine (p2.nodup.subperm (fun p hp => ?_)).length_le
    obtain ⟨q, hq, rfl⟩ := (p2.mem p).1 hp
    exact hpts q hq
  have hpl : ∀ s ∈ sets, ∀ o ∈ s.objects, o.1.length ≤ N := by
    intro s hs o ho
    obtain ⟨r, hr⟩ := p2.object s hs o ho
    obtain ⟨q0, hq0, -, ho0⟩ := hr.object
    rw [← ho0]
    exact hl q0 hq0
  have hev : ∀ s ∈ sets, ∀ o ∈ s.objects, o.2.length = s.points.length := by
    intro s hs o ho
    obtain ⟨r, hr⟩ := p2.object s hs o ho
    exact hr.length
  obtain ⟨sq, hsq, o, ho, hpt, hobj⟩ := p2.covers q hq
  -- the object of the false claim
  have hwrong : polyAt o.1 q.point - polyAt (low sq.points o.2) q.point ≠ 0 := by
    obtain ⟨k, hk, hkp⟩ := List.mem_iff_getElem.1 hpt
    have hk' : k < o.2.length := by rw [hobj.length]; exact hk
    obtain ⟨q0, hq0, hr0, ho0⟩ := hobj.object
    obtain ⟨q1, hq1, hr1, hp1, -, hv1⟩ := hobj.evals k hk hk'
    have := (low_spec sq.points o.2 hobj.length (p2.points sq hsq)).2.2 k hk hk'
    rw [hkp] at this
    rw [this, ← hv1, sub_ne_zero, ← ho0, ← hc q hq q0 hq0 hr0.symm,
      hf q1 hq1 q hq hr1 (by rw [hp1, hkp])]
    intro h
    exact hqf h.symm
  have hcount : sq.objects.length ≤ ps.length :=
    le_trans (List.single_le_sum (by simp) _ (List.mem_map_of_mem (f := fun s => s.objects.length) hsq)) p2.count
  have hsets : sets.length ≤ ps.length := by
    refine le_trans ?_ p2.count
    have : ∀ l : List (RotationSet (List Fr)), (∀ s ∈ l, s.objects ≠ []) →
        l.length ≤ (l.map fun s => s.objects.length).sum := by
      intro l
      induction l with
      | nil => simp
      | cons s l ih =>
        intro h
        have h1 := ih fun s hs => h s (List.mem_cons_of_mem _ hs)
        have h2 := List.length_pos_iff.2 (h s (by simp))
        rw [List.length_cons, List.map_cons, List.sum_cons]
        omega
    exact this sets p2.objects
  have hspos : 0 < sets.length := List.length_pos_of_mem hsq
  have hopos : 0 < sq.objects.length := List.length_pos_of_mem ho
  refine ⟨rootsOf (toPoly (sq.objects.map fun o => polyAt o.1 q.point - polyAt (low sq.points o.2) q.point)),
    fun y => rootsOf (toPoly (sets.map fun s => vanishing (diffs sup s.points) q.point * numer y s q.point q.point)),
    fun y v => rootsOf (wholePoly sets sup y v (h1 y v)),
    fun y v u => rootsOf (match sets with
      | [] => 0
      | s0 :: rest => finalPoly s0 rest sup y v u (h1 y v) (h2 y v u)), ?_, ?_, ?_, ?_, ?_⟩
  · have := rootsOf_card (toPoly (sq.objects.map fun o => polyAt o.1 q.point - polyAt (low sq.points o.2) q.point))
      (toPoly_degree _ (D := sq.objects.length - 1) (by rw [List.length_map]; omega))
    omega
  · intro y
    have := rootsOf_card (toPoly (sets.map fun s => vanishing (diffs sup s.points) q.point *
      numer y s q.point q.point)) (toPoly_degree _ (D := sets.length - 1) (by rw [List.length_map]; omega))
    exact lt_of_le_of_lt this (by omega)
  · intro y v
    exact rootsOf_card _ (le_trans (wholePoly_degree y v p2.nodup p2.points p2.inside hev hpl (l1 y v)) (by omega))
  · intro y v u
    refine rootsOf_card _ ?_
    cases sets with
    | nil => simp
    | cons s0 rest => exact finalPoly_degree s0 rest sup y v u hpl (l1 y v) (l2 y v u)
  · intro y v u s pairing g g2 hpair cs hsame ha
    obtain ⟨s0, rest, rfl, hz, hfin⟩ := accepts_final pairing g g2 hpair s hne hsame p1 y v u _ _ ha
    by_cases c1 : finalPoly s0 rest sup y v u (h1 y v) (h2 y v u) = 0
    · by_cases c2 : wholePoly (s0 :: rest) sup y v (h1 y v) = 0
      · by_cases c3 : numer y sq q.point q.point = 0
        · left
          refine mem_rootsOf' (toPoly_ne_zero (List.mem_map_of_mem ho) hwrong) ?_
          rw [toPoly_eval]
          exact c3
        · right; left
          refine mem_rootsOf' (toPoly_ne_zero (List.mem_map_of_mem hsq) (mul_ne_zero ?_ c3)) ?_
          · rw [Ne, vanishing_zero]
            intro hmem
            have := (List.mem_filter.1 hmem).2
            simp [hpt] at this
          · have h0 := wholePoly_eval (s0 :: rest) sup y v (h1 y v) q.point
            rw [c2, eval_zero, (vanishing_zero sup q.point).2 ((p2.mem _).2 ⟨q, hq, rfl⟩), zero_mul, sub_zero] at h0
            rw [toPoly_eval]
            exact h0.symm
      · right; right; left
        refine mem_rootsOf' c2 ?_
        have h0 := finalPoly_eval s0 rest sup y v u (h1 y v) (h2 y v u) u
        rw [c1, eval_zero, sub_self, zero_mul, zero_sub] at h0
        rw [wholePoly_eval, ← vanishing_split sup s0.points p2.nodup (p2.points _ (List.mem_cons_self ..))
          (p2.inside _ (List.mem_cons_self ..)) u]
        have h0 : (vanishing (diffs sup s0.points) u)⁻¹ * linear sup y v (s0 :: rest) u u =
          vanishing s0.points u * polyAt (h1 y v) u := by
          linear_combination h0
        have h0 := congrArg (fun a => vanishing (diffs sup s0.points) u * a) h0
        beta_reduce at h0
        rw [← mul_assoc, mul_inv_cancel₀ hz, one_mul] at h0
        rw [h0]
        ring
    · right; right; right
      exact mem_rootsOf' c1 hfin

end Verif.Shplonk
