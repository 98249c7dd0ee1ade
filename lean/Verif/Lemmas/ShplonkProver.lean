import Verif.Lemmas.ShplonkVerify

/-! What the prover of the openings computes, and that the verifier accepts it. -/

namespace Verif.Shplonk

open Plonk Spec Finset

theorem vanishing_eq (roots : List Fr) (z : Fr) : vanishing roots z = (roots.map fun p => z - p).prod := by
  have : ∀ a, roots.foldl (fun acc p => (z - p) * acc) a = a * (roots.map fun p => z - p).prod := by
    induction roots with
    | nil => intro a; simp
    | cons r rs ih =>
      intro a
      rw [List.foldl_cons, ih, List.map_cons, List.prod_cons]
      ring
  unfold vanishing
  rw [this, one_mul]

theorem vanishing_cons (r : Fr) (rs : List Fr) (z : Fr) : vanishing (r :: rs) z = (z - r) * vanishing rs z := by
  rw [vanishing_eq, vanishing_eq, List.map_cons, List.prod_cons]

theorem vanishing_zero (roots : List Fr) (z : Fr) : vanishing roots z = 0 ↔ z ∈ roots := by
  rw [vanishing_eq, List.prod_eq_zero_iff, List.mem_map]
  constructor
  · rintro ⟨p, hp, h⟩
    rw [sub_eq_zero.1 h]; exact hp
  · intro h
    exact ⟨z, h, sub_self z⟩

/-- The points of a set and the others make up all points. -/
theorem vanishing_split (sup points : List Fr) (hs : sup.Nodup) (hp : points.Nodup)
    (hin : ∀ p ∈ points, p ∈ sup) (z : Fr) :
    vanishing points z * vanishing (diffs sup points) z = vanishing sup z := by
  have h1 : (sup.filter fun p => p ∈ points).Perm points := by
    rw [List.perm_ext_iff_of_nodup (hs.filter _) hp]
    intro a
    rw [List.mem_filter, decide_eq_true_eq]
    exact ⟨fun h => h.2, fun h => ⟨hin a h, h⟩⟩
  have h2 := List.filter_append_perm (fun p => decide (p ∈ points)) sup
  rw [vanishing_eq, vanishing_eq, vanishing_eq, ← (h2.map fun p => z - p).prod_eq, List.map_append,
    List.prod_append, (h1.map fun p => z - p).prod_eq]
  congr 2
  unfold diffs
  congr 2
  funext p
  simp

theorem polyAt_getD (c : List Fr) (x : Fr) (n : Nat) (h : c.length ≤ n) :
    polyAt c x = ∑ i ∈ range n, x ^ i * c.getD i 0 := by
  rw [polyAt_eq]
  apply sum_subset_zero_on_sdiff (range_subset_range.2 h)
  · intro i hi
    rw [mem_sdiff, mem_range, mem_range] at hi
    rw [List.getD_eq_getElem?_getD, List.getElem?_eq_none (by omega)]
    simp
  · intro i _
    rfl

theorem polyAt_zipIdx (a b : List Fr) (f : Fr → Fr → Fr) (x : Fr) (h : b.length ≤ a.length) (e : Fr)
    (hf : ∀ p q, f p q = p + e * q) :
    polyAt (a.zipIdx.map fun (p : Fr × Nat) => f p.1 (b.getD p.2 0)) x = polyAt a x + e * polyAt b x := by
  rw [polyAt_getD _ x a.length (by simp), polyAt_getD a x a.length le_rfl, polyAt_getD b x a.length h,
    mul_sum, ← sum_add_distrib]
  apply sum_congr rfl
  intro i hi
  rw [mem_range] at hi
  have : (a.zipIdx.map fun (p : Fr × Nat) => f p.1 (b.getD p.2 0)).getD i 0 =
      a.getD i 0 + e * b.getD i 0 := by
    rw [List.getD_eq_getElem?_getD, List.getElem?_map, List.getElem?_zipIdx, List.getElem?_eq_getElem hi]
    simp [hf, List.getD_eq_getElem?_getD, hi]
  rw [this]
  ring

theorem addPoly_ok {a b : List Fr} (h : a.length = b.length) :
    ∃ c, addPoly a b = .ok c ∧ c.length = a.length ∧ ∀ x, polyAt c x = polyAt a x + polyAt b x := by
  unfold addPoly
  rw [if_neg (by omega)]
  refine ⟨_, rfl, by simp, fun x => ?_⟩
  rw [polyAt_zipIdx a b (fun p q => p + q) x (by omega) 1 (by intros; ring), one_mul]

theorem subPoly_ok {a b : List Fr} (h : a.length = b.length) :
    ∃ c, subPoly a b = .ok c ∧ c.length = a.length ∧ ∀ x, polyAt c x = polyAt a x - polyAt b x := by
  unfold subPoly
  rw [if_neg (by omega)]
  refine ⟨_, rfl, by simp, fun x => ?_⟩
  rw [polyAt_zipIdx a b (fun p q => p - q) x (by omega) (-1) (by intros; ring)]
  ring

theorem mulPoly_at (a : List Fr) (c x : Fr) : polyAt (mulPoly a c) x = c * polyAt a x := by
  unfold mulPoly
  induction a with
  | nil => simp [polyAt_nil]
  | cons v a ih =>
    rw [List.map_cons, polyAt_cons, polyAt_cons, ih]
    simp only [smul_eq_mul]
    ring

theorem mulPoly_length (a : List Fr) (c : Fr) : (mulPoly a c).length = a.length := by simp [mulPoly]

theorem subConst_ok {a : List Fr} (c : Fr) (h : a ≠ []) :
    ∃ b, subConst a c = .ok b ∧ b.length = a.length ∧ ∀ x, polyAt b x = polyAt a x - c := by
  cases a with
  | nil => exact absurd rfl h
  | cons v a =>
    refine ⟨_, rfl, by simp, fun x => ?_⟩
    rw [polyAt_cons, polyAt_cons]
    ring

theorem foldlM_add {n : Nat} : ∀ (ps : List (List Fr)) (a : List Fr), a.length = n → (∀ p ∈ ps, p.length = n) →
    ∃ c, ps.foldlM addPoly a = .ok c ∧ c.length = n ∧
      ∀ x, polyAt c x = polyAt a x + (ps.map fun p => polyAt p x).sum
  | [], a, ha, _ => ⟨a, rfl, ha, fun x => by simp⟩
  | p :: ps, a, ha, h => by
    obtain ⟨b, hb, hl, hx⟩ := addPoly_ok (show a.length = p.length by rw [ha, h p (by simp)])
    obtain ⟨c, hc, hl', hx'⟩ := foldlM_add ps b (by rw [hl, ha]) (fun q hq => h q (List.mem_cons_of_mem _ hq))
    refine ⟨c, ?_, hl', fun x => ?_⟩
    · rw [List.foldlM_cons, hb]
      exact hc
    · rw [hx', hx, List.map_cons, List.sum_cons]
      ring

theorem combine_ok {n : Nat} (base : Fr) (ps : List (List Fr)) (hne : ps ≠ []) (h : ∀ p ∈ ps, p.length = n) :
    ∃ c, combine base ps = .ok c ∧ c.length = n ∧ ∀ x, polyAt c x = polyAt (ps.map fun p => polyAt p x) base := by
  have hsum : ∀ x, (((withPowers base ps).map fun (p : List Fr × Fr) => mulPoly p.1 p.2).map
      fun p => polyAt p x).sum = polyAt (ps.map fun p => polyAt p x) base := by
    intro x
    have := powers_sum base (fun p : List Fr => polyAt p x) ps 0
    rw [pow_zero, one_smul] at this
    rw [← this]
    unfold withPowers
    rw [List.map_map, List.map_map]
    congr 1
    apply List.map_congr_left
    intro p _
    exact mulPoly_at _ _ _
  have hlen : ∀ p ∈ (withPowers base ps).map fun (p : List Fr × Fr) => mulPoly p.1 p.2, p.length = n := by
    intro p hp
    obtain ⟨w, hw, rfl⟩ := List.mem_map.1 hp
    unfold withPowers at hw
    obtain ⟨q, hq, rfl⟩ := List.mem_map.1 hw
    rw [mulPoly_length]
    exact h _ (List.fst_mem_of_mem_zipIdx hq)
  unfold combine
  cases hw : (withPowers base ps).map fun (p : List Fr × Fr) => mulPoly p.1 p.2 with
  | nil =>
    exfalso
    have := congrArg List.length hw
    unfold withPowers at this
    simp only [List.length_map, List.length_zipIdx, List.length_nil] at this
    exact hne (List.length_eq_zero_iff.1 this)
  | cons a as =>
    rw [hw] at hlen hsum
    obtain ⟨c, hc, hl, hx⟩ := foldlM_add as a (hlen a (by simp)) (fun p hp => hlen p (List.mem_cons_of_mem _ hp))
    refine ⟨c, hc, hl, fun x => ?_⟩
    rw [hx, ← hsum, List.map_cons, List.sum_cons]

/-- Dividing by distinct roots. -/
theorem divByVanishing_ok : ∀ (roots poly : List Fr), roots.Nodup → roots.length ≤ poly.length →
    (∀ r ∈ roots, polyAt poly r = 0) →
    ∃ q, divByVanishing poly roots = .ok q ∧ q.length + roots.length = poly.length ∧
      ∀ x, polyAt poly x = vanishing roots x * polyAt q x
  | [], poly, _, _, _ => ⟨poly, rfl, by simp, fun x => by simp [vanishing]⟩
  | r :: rs, poly, hn, hl, hz => by
    have hne : poly ≠ [] := by
      rintro rfl
      simp at hl
    obtain ⟨q, hq, hlq, hx⟩ := kateDivision_spec poly r hne
    have hr := hz r (by simp)
    have hn' := List.nodup_cons.1 hn
    simp only [List.length_cons] at hl
    obtain ⟨q', hq', hlq', hx'⟩ := divByVanishing_ok rs q hn'.2 (by omega) (fun r' hr' => by
      have h1 := hx r'
      rw [hz r' (List.mem_cons_of_mem _ hr'), hr, add_zero] at h1
      rcases mul_eq_zero.1 h1.symm with h | h
      · exfalso
        rw [sub_eq_zero] at h
        rw [h] at hr'
        exact hn'.1 hr'
      · exact h)
    refine ⟨q', ?_, ?_, fun x => ?_⟩
    · unfold divByVanishing at hq' ⊢
      rw [List.foldlM_cons, hq]
      exact hq'
    · simp only [List.length_cons]; omega
    · rw [hx x, hr, add_zero, hx', vanishing_cons]
      ring

/-- What is known of a set of the prover. -/
structure GoodSet (n : Nat) (s : RotationSet (List Fr)) : Prop where
  points : s.points.Nodup
  few : s.points.length ≤ n
  objects : s.objects ≠ []
  lengths : ∀ o ∈ s.objects, o.1.length = n ∧ o.2.length = s.points.length
  evals : ∀ o ∈ s.objects, ∀ (k : Nat) (h : k < s.points.length) (h' : k < o.2.length),
    o.2[k] = polyAt o.1 s.points[k]

/-- The set with the low degree equivalents. -/
def extended (s : RotationSet (List Fr)) : ExtendedSet :=
  ⟨s.objects.map fun o => ⟨o.1, low s.points o.2⟩, s.points⟩

variable {n : Nat}

theorem extend_ok {s : RotationSet (List Fr)} (h : GoodSet n s) : extend s = .ok (extended s) := by
  unfold extend
  have : s.objects.mapM (fun (o : List Fr × List Fr) => (do
      let low ← lagrangeInterpolate s.points o.2
      return (⟨o.1, low⟩ : Extended) : Except Panic Extended)) =
      .ok (s.objects.map fun o => ⟨o.1, low s.points o.2⟩) := by
    have hl : ∀ o ∈ s.objects, o.2.length = s.points.length := fun o ho => (h.lengths o ho).2
    generalize s.objects = os at hl ⊢
    induction os with
    | nil => rfl
    | cons o os ih =>
      rw [List.mapM_cons, ih (fun o ho => hl o (List.mem_cons_of_mem _ ho)),
        (low_spec s.points o.2 (hl o (by simp)) h.points).1]
      rfl
  rw [this]
  rfl

/-- The numerator of a set. -/
def numer (y : Fr) (s : RotationSet (List Fr)) (x u : Fr) : Fr :=
  polyAt (s.objects.map fun o => polyAt o.1 x - polyAt (low s.points o.2) u) y

theorem polyAt_map_zero {α : Type} (l : List α) (f : α → Fr) (y : Fr) (h : ∀ a ∈ l, f a = 0) :
    polyAt (l.map f) y = 0 := by
  induction l with
  | nil => exact polyAt_nil y
  | cons a l ih =>
    rw [List.map_cons, polyAt_cons, h a (by simp), ih (fun a ha => h a (List.mem_cons_of_mem _ ha))]
    simp

theorem quotient_ok {s : RotationSet (List Fr)} (h : GoodSet n s) (y : Fr) :
    ∃ q, (extended s).quotient n y = .ok q ∧ q.length = n ∧
      ∀ x, vanishing s.points x * polyAt q x = numer y s x x := by
  have hlow : ∀ o ∈ s.objects, (low s.points o.2).length ≤ n ∧
      ∀ p ∈ s.points, polyAt (low s.points o.2) p = polyAt o.1 p := by
    intro o ho
    obtain ⟨-, h2, h3⟩ := low_spec s.points o.2 (h.lengths o ho).2 h.points
    refine ⟨by rw [h2]; exact h.few, fun p hp => ?_⟩
    obtain ⟨k, hk, rfl⟩ := List.mem_iff_getElem.1 hp
    have hk' : k < o.2.length := by rw [(h.lengths o ho).2]; exact hk
    rw [h3 k hk hk', h.evals o ho k hk hk']
  obtain ⟨ns, hns, hf⟩ := mapM_exists Extended.numerator (extended s).objects (by
    intro e he
    obtain ⟨o, ho, rfl⟩ := List.mem_map.1 he
    unfold Extended.numerator
    rw [if_neg (by have := (hlow o ho).1; have := (h.lengths o ho).1; simp only; omega)]
    exact ⟨_, rfl⟩)
  have hns' : (∀ p ∈ ns, p.length = n) ∧ ∀ x, ns.map (fun p => polyAt p x) =
      s.objects.map fun o => polyAt o.1 x - polyAt (low s.points o.2) x := by
    unfold extended at hf
    simp only at hf
    clear hns
    have hlow' : ∀ o ∈ s.objects, (low s.points o.2).length ≤ o.1.length ∧ o.1.length = n := fun o ho =>
      ⟨by rw [(h.lengths o ho).1]; exact (hlow o ho).1, (h.lengths o ho).1⟩
    generalize s.objects = os at hf hlow' ⊢
    induction os generalizing ns with
    | nil =>
      rw [List.map_nil] at hf
      obtain rfl := List.forall₂_nil_left_iff.1 hf
      simp
    | cons o os ih =>
      rw [List.map_cons] at hf
      obtain ⟨c, ns', hc, hf', rfl⟩ := List.forall₂_cons_left_iff.1 hf
      obtain ⟨i1, i2⟩ := ih ns' hf' (fun o ho => hlow' o (List.mem_cons_of_mem _ ho))
      obtain ⟨l1, l2⟩ := hlow' o (by simp)
      unfold Extended.numerator at hc
      rw [if_neg (by simp only; omega)] at hc
      obtain rfl := Except.ok.inj hc
      refine ⟨fun p hp => ?_, fun x => ?_⟩
      · rcases List.mem_cons.1 hp with rfl | hp
        · simpa using l2
        · exact i1 p hp
      · rw [List.map_cons, List.map_cons, i2 x]
        congr 1
        show polyAt (o.1.zipIdx.map fun (p : Fr × Nat) => p.1 - (low s.points o.2).getD p.2 0) x = _
        rw [polyAt_zipIdx o.1 (low s.points o.2) (fun p q => p - q) x l1 (-1) (by intros; ring)]
        ring
  have hne : ns ≠ [] := by
    intro hnil
    have := hns'.2 0
    rw [hnil] at this
    exact h.objects (List.map_eq_nil_iff.1 this.symm)
  obtain ⟨c, hc, hl, hx⟩ := combine_ok y ns hne hns'.1
  obtain ⟨q, hq, hlq, hxq⟩ := divByVanishing_ok s.points c h.points (by rw [hl]; exact h.few) (fun r hr => by
    rw [hx, hns'.2]
    exact polyAt_map_zero _ _ _ (fun o ho => by rw [(hlow o ho).2 r hr, sub_self]))
  refine ⟨Domain.resize q n, ?_, length_resize q n (by omega), fun x => ?_⟩
  · unfold ExtendedSet.quotient
    rw [hns]
    simp only [bind, Except.bind, hc]
    have : (extended s).points = s.points := rfl
    rw [this, hq]
    rfl
  · rw [polyAt_resize q n x (by omega), ← hxq, hx, hns'.2]
    rfl

theorem linearisation_ok {s : RotationSet (List Fr)} (h : GoodSet n s) (hn : 0 < n) (sup : List Fr) (y u : Fr) :
    ∃ l, (extended s).linearisation sup y u = .ok (l, vanishing (diffs sup s.points) u) ∧ l.length = n ∧
      ∀ x, polyAt l x = vanishing (diffs sup s.points) u * numer y s x u := by
  obtain ⟨ns, hns, hf⟩ := mapM_exists (fun (e : Extended) => subConst e.poly (evalPolynomial e.low u))
    (extended s).objects (by
      intro e he
      obtain ⟨o, ho, rfl⟩ := List.mem_map.1 he
      obtain ⟨b, hb, -⟩ := subConst_ok (a := o.1) (evalPolynomial (low s.points o.2) u) (by
        intro h0
        have := (h.lengths o ho).1
        rw [h0] at this
        simp at this
        omega)
      exact ⟨b, hb⟩)
  have hns' : (∀ p ∈ ns, p.length = n) ∧ ∀ x, ns.map (fun p => polyAt p x) =
      s.objects.map fun o => polyAt o.1 x - polyAt (low s.points o.2) u := by
    unfold extended at hf
    simp only at hf
    clear hns
    have hlow' : ∀ o ∈ s.objects, o.1.length = n := fun o ho => (h.lengths o ho).1
    generalize s.objects = os at hf hlow' ⊢
    induction os generalizing ns with
    | nil =>
      rw [List.map_nil] at hf
      obtain rfl := List.forall₂_nil_left_iff.1 hf
      simp
    | cons o os ih =>
      rw [List.map_cons] at hf
      obtain ⟨c, ns', hc, hf', rfl⟩ := List.forall₂_cons_left_iff.1 hf
      obtain ⟨i1, i2⟩ := ih ns' hf' (fun o ho => hlow' o (List.mem_cons_of_mem _ ho))
      have l2 := hlow' o (by simp)
      obtain ⟨b, hb, hlb, hxb⟩ := subConst_ok (a := o.1) (evalPolynomial (low s.points o.2) u) (by
        intro h0
        rw [h0] at l2
        simp at l2
        omega)
      simp only at hc
      rw [hc] at hb
      obtain rfl := Except.ok.inj hb
      refine ⟨fun p hp => ?_, fun x => ?_⟩
      · rcases List.mem_cons.1 hp with rfl | hp
        · rw [hlb, l2]
        · exact i1 p hp
      · rw [List.map_cons, List.map_cons, i2 x, hxb, evalPolynomial_eq]
  have hne : ns ≠ [] := by
    intro hnil
    have := hns'.2 0
    rw [hnil] at this
    exact h.objects (List.map_eq_nil_iff.1 this.symm)
  obtain ⟨c, hc, hl, hx⟩ := combine_ok y ns hne hns'.1
  refine ⟨mulPoly c (vanishing (diffs sup s.points) u), ?_, by rw [mulPoly_length, hl], fun x => ?_⟩
  · unfold ExtendedSet.linearisation
    dsimp only
    rw [hns]
    simp only [bind, Except.bind, hc]
    rfl
  · rw [mulPoly_at, hx, hns'.2]
    rfl

/-- The sets of the prover are good. -/
theorem good_sets {ρ : Type} [DecidableEq ρ] {qs : List (Claim ρ (List Fr))} {sets : List (RotationSet (List Fr))}
    {sup : List Fr} (hs : SetsOk qs sets sup) (ht : ∀ q ∈ qs, ClaimTrue q) (hc : Consistent qs)
    (hl : ∀ q ∈ qs, q.object.length = n) (hn : sup.length ≤ n) : ∀ s ∈ sets, GoodSet n s := by
  intro s hm
  have hval : ∀ o ∈ s.objects, o.1.length = n ∧ o.2.length = s.points.length ∧
      ∀ (k : Nat) (h : k < s.points.length) (h' : k < o.2.length), o.2[k] = polyAt o.1 s.points[k] := by
    intro o ho
    obtain ⟨r, hr⟩ := hs.object s hm o ho
    obtain ⟨q0, hq0, hr0, ho0⟩ := hr.object
    refine ⟨by rw [← ho0]; exact hl q0 hq0, hr.length, fun k h h' => ?_⟩
    obtain ⟨q, hq, hqr, hqp, -, hv⟩ := hr.evals k h h'
    rw [← hv, ht q hq, hqp, hc q hq q0 hq0 (by rw [hqr, hr0]), ho0]
  refine ⟨hs.points s hm, ?_, hs.objects s hm, fun o ho => ⟨(hval o ho).1, (hval o ho).2.1⟩,
    fun o ho => (hval o ho).2.2⟩
  refine le_trans ?_ hn
  exact ((hs.points s hm).subperm (fun p hp => hs.inside s hm p hp)).length_le

end Verif.Shplonk
