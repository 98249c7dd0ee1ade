import Verif.Lemmas.IpaOpenVerify
import Verif.Lemmas.ShplonkSound

/-! A wrong claim passes the opening without a trusted setup only with challenges in small sets. -/

namespace Verif.IpaOpen

open Shplonk (Claim low low_spec vanishing vanishing_zero vanishingPoly vanishingPoly_eval vanishingPoly_degree rootsOf rootsOf_card
  mem_rootsOf toPoly_ne_zero diffs vanishing_split sub_degree)
open Plonk
open Spec Spec.IpaOpen
open Spec.Ipa (Ok Opens Independent coeffs rest dot_add dot_mul coeffs_unique)
open Ipa (Params Proof)
open Polynomial

variable {V : Type} [AddCommGroup V] [Module Fr V]

theorem horner_toPoly (l : List Fr) (t : Fr) : folded t l = (toPoly l.reverse).eval t := by
  rw [horner_eq, toPoly_eval]

/-- Vectors not all in a subspace: few combinations are in it. -/
theorem horner_bad (W : Submodule Fr V) {vs : List V} (h : ∃ v ∈ vs, v ∉ W) :
    ∃ B : Finset Fr, B.card < vs.length ∧ ∀ t, folded t vs ∈ W → t ∈ B := by
  obtain ⟨v, hv, hn⟩ := h
  have hne : W.mkQ v ≠ 0 := fun hc => hn ((Submodule.Quotient.mk_eq_zero W).1 hc)
  obtain ⟨φ, hφ⟩ : ∃ φ : Module.Dual Fr (V ⧸ W), φ (W.mkQ v) ≠ 0 := by
    by_contra hc
    push Not at hc
    exact hne ((Module.forall_dual_apply_eq_zero_iff Fr _).1 hc)
  have hlen : 0 < vs.length := List.length_pos_of_mem hv
  refine ⟨rootsOf (toPoly (vs.map (φ.comp W.mkQ)).reverse), ?_, fun t ht => ?_⟩
  · have := rootsOf_card (toPoly (vs.map (φ.comp W.mkQ)).reverse) (toPoly_degree _ (D := vs.length - 1) (by simp; omega))
    omega
  · refine Shplonk.mem_rootsOf' (toPoly_ne_zero (a := φ (W.mkQ v)) ?_ hφ) ?_
    · rw [List.mem_reverse]
      exact List.mem_map.2 ⟨v, hv, rfl⟩
    · rw [← horner_toPoly, horner_map, LinearMap.comp_apply,
        show W.mkQ (folded t vs) = 0 from (Submodule.Quotient.mk_eq_zero W).2 ht, map_zero]

/-- Points and the values that they open to. -/
def opensAt (params : Params V) (x : Fr) : Submodule Fr (V × Fr) where
  carrier := {e | Opens params e.1 x e.2}
  zero_mem' := ⟨List.replicate params.n 0, 0, by simp, by
    have := dot_mul (0 : Fr) (List.replicate params.n 0) params.g
    rw [zero_smul] at this
    simp at this
    simp [this], by
    rw [Spec.Ipa.polyAt_dot]
    have := dot_mul (0 : Fr) (List.replicate params.n 0) ((List.range params.n).map (x ^ ·))
    rw [zero_smul] at this
    simpa using this⟩
  add_mem' := by
    rintro a b ⟨p, r, h1, h2, h3⟩ ⟨q, s, h4, h5, h6⟩
    refine ⟨List.zipWith (· + ·) p q, r + s, by simp [h1, h4], ?_, ?_⟩
    · rw [dot_add (by rw [h1, h4]), Prod.fst_add, h2, h5]
      module
    · rw [Spec.Ipa.polyAt_dot] at h3 h6 ⊢
      have : (List.zipWith (· + ·) p q).length = params.n := by simp [h1, h4]
      rw [h1] at h3
      rw [h4] at h6
      rw [this, dot_add (by rw [h1, h4]), h3, h6, Prod.snd_add]
  smul_mem' := by
    rintro c a ⟨p, r, h1, h2, h3⟩
    refine ⟨p.map (· * c), c * r, by simp [h1], ?_, ?_⟩
    · rw [dot_mul, Prod.smul_fst, h2]
      module
    · rw [Spec.Ipa.polyAt_dot] at h3 ⊢
      rw [List.length_map, dot_mul, h3]
      rfl

theorem mem_opensAt {params : Params V} {x : Fr} {e : V × Fr} : e ∈ opensAt params x ↔ Opens params e.1 x e.2 := Iff.rfl

/-- The polynomial of a commitment. -/
noncomputable def polyOf (params : Params V) (a : V) : List Fr := by
  classical
  exact if h : ∃ (p : List Fr) (r : Fr), p.length = params.n ∧ a = dot p params.g + r • params.w then h.choose else []

theorem polyOf_opens {params : Params V} (ind : Independent params) {a : V} {x v : Fr} (h : Opens params a x v) :
    polyAt (polyOf params a) x = v := by
  obtain ⟨p, r, h1, h2, h3⟩ := h
  have hc : ∃ (p : List Fr) (r : Fr), p.length = params.n ∧ a = dot p params.g + r • params.w := ⟨p, r, h1, h2⟩
  unfold polyOf
  rw [dif_pos hc]
  obtain ⟨r', h4, h5⟩ := hc.choose_spec
  have := (coeffs_unique (t := 0) (t' := 0) ind h1 h4 (by rw [zero_smul, add_zero, add_zero, ← h2, ← h5])).1
  rw [← this, h3]

theorem polyOf_length (params : Params V) (a : V) : (polyOf params a).length ≤ params.n := by
  unfold polyOf
  split
  · next h => obtain ⟨r, h1, -⟩ := h.choose_spec; exact h1.le
  · simp

theorem polyOf_self {params : Params V} {a : V}
    (h : ∃ (p : List Fr) (r : Fr), p.length = params.n ∧ a = dot p params.g + r • params.w) (x : Fr) :
    Opens params a x (polyAt (polyOf params a) x) := by
  unfold polyOf
  rw [dif_pos h]
  obtain ⟨r, h1, h2⟩ := h.choose_spec
  exact ⟨_, r, h1, h2, rfl⟩

section

variable {ρ T : Type} [DecidableEq ρ]

theorem horner_pairs {α : Type} (t : Fr) (l : List α) (f : α → V) (g : α → Fr) :
    folded t (l.map fun a => (f a, g a)) = (folded t (l.map f), folded t (l.map g)) := by
  refine Prod.ext ?_ ?_
  · have := horner_map (LinearMap.fst Fr V Fr) t (l.map fun a => (f a, g a))
    rw [List.map_map] at this
    exact this.symm
  · have := horner_map (LinearMap.snd Fr V Fr) t (l.map fun a => (f a, g a))
    rw [List.map_map] at this
    exact this.symm

theorem horner_eval {α : Type} (t : Fr) (l : List α) (f : α → Fr[X]) (x : Fr) :
    (folded t (l.map f)).eval x = folded t (l.map fun a => (f a).eval x) := by
  have := horner_map (Polynomial.leval x : Fr[X] →ₗ[Fr] Fr) t (l.map f)
  rw [List.map_map] at this
  exact this.symm

theorem horner_degree {α : Type} (t : Fr) (l : List α) (f : α → Fr[X]) {D : Nat} (h : ∀ a ∈ l, (f a).natDegree ≤ D) :
    (folded t (l.map f)).natDegree ≤ D := by
  rw [horner_eq, ← List.map_reverse]
  exact Shplonk.polyAt_natDegree _ _ _ fun a ha => h a (List.mem_reverse.1 ha)

theorem horner_mul {α : Type} (t c : Fr) (l : List α) (f : α → Fr) : c * folded t (l.map f) = folded t (l.map fun a => c * f a) := by
  have := horner_map (LinearMap.mulLeft Fr c) t (l.map f)
  rw [List.map_map] at this
  exact this.symm

/-- What the third challenge must make vanish. -/
noncomputable def whole (params : Params V) (x1 x2 : Fr) (ps : List (Claim ρ V)) (qPrime : V) : Fr[X] :=
  folded x2 ((pointSets ps).map fun s => vanishingPoly (diffs (points ps) s) *
    (toPoly (polyOf params (setPoint x1 ps s)) - toPoly (setLow x1 ps s))) - vanishingPoly (points ps) * toPoly (polyOf params qPrime)

theorem whole_eval (params : Params V) (x1 x2 : Fr) (ps : List (Claim ρ V)) (qPrime : V) (x : Fr) :
    (whole params x1 x2 ps qPrime).eval x = folded x2 ((pointSets ps).map fun s => vanishing (diffs (points ps) s) x *
      (polyAt (polyOf params (setPoint x1 ps s)) x - polyAt (setLow x1 ps s) x)) - vanishing (points ps) x * polyAt (polyOf params qPrime) x := by
  unfold whole
  rw [eval_sub, horner_eval, eval_mul, vanishingPoly_eval, toPoly_eval]
  congr 2
  refine List.map_congr_left fun s _ => ?_
  rw [eval_mul, eval_sub, vanishingPoly_eval, toPoly_eval, toPoly_eval]

theorem split_length {sup s : List Fr} (hn : sup.Nodup) (hs : s.Nodup) (hin : ∀ p ∈ s, p ∈ sup) :
    s.length + (diffs sup s).length = sup.length := by
  have h1 : (sup.filter fun p => p ∈ s).Perm s := by
    rw [List.perm_ext_iff_of_nodup (hn.filter _) hs]
    intro a
    rw [List.mem_filter, decide_eq_true_eq]
    exact ⟨fun h => h.2, fun h => ⟨hin a h, h⟩⟩
  have h2 := (List.filter_append_perm (fun p => decide (p ∈ s)) sup).length_eq
  rw [List.length_append, h1.length_eq] at h2
  unfold diffs
  convert h2 using 4
  simp

theorem setLow_length {x1 : Fr} {ps : List (Claim ρ T)} {s : List Fr} (hs : s ∈ pointSets ps) : (setLow x1 ps s).length = s.length :=
  (low_spec s _ (by simp) (set_nodup hs)).2.1

theorem setLow_at {x1 : Fr} {ps : List (Claim ρ T)} {s : List Fr} (hs : s ∈ pointSets ps) {p : Fr} (hp : p ∈ s) :
    polyAt (setLow x1 ps s) p = setValue x1 ps s p := by
  obtain ⟨i, hi, rfl⟩ := List.mem_iff_getElem.1 hp
  have := (low_spec s (s.map (setValue x1 ps s)) (by simp) (set_nodup hs)).2.2 i hi (by simpa using hi)
  rw [List.getElem_map] at this
  exact this

theorem whole_degree (params : Params V) (x1 x2 : Fr) (ps : List (Claim ρ V)) (qPrime : V) :
    (whole params x1 x2 ps qPrime).natDegree ≤ (points ps).length + params.n := by
  unfold whole
  refine sub_degree (horner_degree _ _ _ fun s hs => ?_) ?_
  · have hsplit := split_length (points_spec ps).1 (set_nodup hs) fun p hp => set_points hs hp
    refine le_trans natDegree_mul_le ?_
    have h1 := vanishingPoly_degree (diffs (points ps) s)
    have h2 : (toPoly (polyOf params (setPoint x1 ps s)) - toPoly (setLow x1 ps s)).natDegree ≤ max params.n s.length := by
      refine sub_degree (toPoly_degree _ ?_) (toPoly_degree _ ?_)
      · have := polyOf_length params (setPoint x1 ps s)
        omega
      · rw [setLow_length hs]
        omega
    rcases le_total params.n s.length with h | h
    · rw [max_eq_right h] at h2; omega
    · rw [max_eq_left h] at h2; omega
  · refine le_trans natDegree_mul_le ?_
    have hv := vanishingPoly_degree (points ps)
    have h2 := toPoly_degree (c := polyOf params qPrime) (D := params.n) (by have := polyOf_length params qPrime; omega)
    omega

/-- The first challenge. -/
theorem first {params : Params V} {ps : List (Claim ρ V)} (hc : Consistent ps) (hf : Functional ps) {q : Claim ρ V} (hq : q ∈ ps)
    (hno : ¬ Opens params q.object q.point q.value) :
    ∃ s ∈ pointSets ps, q.point ∈ s ∧ ∃ B : Finset Fr, B.card < ps.length ∧ ∀ x1, x1 ∉ B →
      ¬ Opens params (setPoint x1 ps s) q.point (setValue x1 ps s q.point) := by
  obtain ⟨s, hs, hp, q', hq', hr⟩ := covers ps hq
  obtain ⟨hm, hset⟩ := mem_group hq'
  obtain ⟨q1, h1, h2, h3, h4⟩ := value_mem ps (r := q'.ref) (p := q.point) (by rw [hset]; exact hp)
  obtain ⟨B, hB, hB'⟩ := horner_bad (opensAt params q.point)
    (vs := (group ps s).map fun a => (a.object, valueAt (own ps a.ref) q.point))
    ⟨(q'.object, q.value), List.mem_map.2 ⟨q', hq', by rw [h4, hf q1 h1 q hq (h2.trans hr) h3]⟩, by
      rw [mem_opensAt, hc q' hm q hq hr]
      exact hno⟩
  refine ⟨s, hs, hp, B, ?_, fun x1 hx1 hc => hx1 (hB' x1 ?_)⟩
  · rw [List.length_map] at hB
    exact lt_of_lt_of_le hB (group_length ps s)
  · rw [horner_pairs, mem_opensAt]
    exact hc

/-- The last challenge. -/
theorem fourth {params : Params V} (ps : List (Claim ρ V)) (x1 x2 x3 : Fr) (qPrime : V) {u : List Fr} (hu : u.length = (pointSets ps).length)
    (h : ¬ (Opens params qPrime x3 (finalEval x1 x2 x3 ps u) ∧ ∀ e ∈ (pointSets ps).zip u, Opens params (setPoint x1 ps e.1) x3 e.2)) :
    ∃ B : Finset Fr, B.card ≤ ps.length ∧ ∀ x4, Opens params (finalPoint x1 x4 ps qPrime) x3 (finalValue x1 x2 x3 x4 ps u) → x4 ∈ B := by
  obtain ⟨B, hB, hB'⟩ := horner_bad (opensAt params x3)
    (vs := (qPrime, finalEval x1 x2 x3 ps u) :: ((pointSets ps).zip u).map fun e => (setPoint x1 ps e.1, e.2)) (by
      by_contra hc
      push Not at hc
      refine h ⟨hc (qPrime, finalEval x1 x2 x3 ps u) (by simp), fun e he => ?_⟩
      exact hc (setPoint x1 ps e.1, e.2) (List.mem_cons_of_mem _ (List.mem_map.2 ⟨e, he, rfl⟩)))
  refine ⟨B, ?_, fun x4 h4 => hB' x4 ?_⟩
  · have := (pointSets_spec ps).2.2
    simp [hu] at hB
    omega
  · rw [mem_opensAt]
    have e := horner_pairs x4 ((qPrime, finalEval x1 x2 x3 ps u) :: ((pointSets ps).zip u).map fun e => (setPoint x1 ps e.1, e.2))
      Prod.fst Prod.snd
    rw [show (fun a : V × Fr => (a.1, a.2)) = id from rfl, List.map_id] at e
    rw [e]
    have e1 : (((qPrime, finalEval x1 x2 x3 ps u) :: ((pointSets ps).zip u).map fun e => (setPoint x1 ps e.1, e.2)).map Prod.fst) =
        qPrime :: (pointSets ps).map (setPoint x1 ps) := by
      rw [List.map_cons, List.map_map]
      congr 1
      have : (Prod.fst ∘ fun e : List Fr × Fr => (setPoint x1 ps e.1, e.2)) = setPoint x1 ps ∘ Prod.fst := rfl
      rw [this, ← List.map_map, List.map_fst_zip hu.ge]
    have e2 : (((qPrime, finalEval x1 x2 x3 ps u) :: ((pointSets ps).zip u).map fun e => (setPoint x1 ps e.1, e.2)).map Prod.snd) =
        finalEval x1 x2 x3 ps u :: u := by
      rw [List.map_cons, List.map_map]
      congr 1
      have : (Prod.snd ∘ fun e : List Fr × Fr => (setPoint x1 ps e.1, e.2)) = Prod.snd := rfl
      rw [this, List.map_snd_zip hu.le]
    rw [e1, e2]
    exact h4

/-- What the values must satisfy. -/
theorem third {params : Params V} (ind : Independent params) (ps : List (Claim ρ V)) (x1 x2 x3 : Fr) (qPrime : V) {u : List Fr}
    (hu : u.length = (pointSets ps).length) (hx : x3 ∉ points ps)
    (h : Opens params qPrime x3 (finalEval x1 x2 x3 ps u)) (h' : ∀ e ∈ (pointSets ps).zip u, Opens params (setPoint x1 ps e.1) x3 e.2) :
    (whole params x1 x2 ps qPrime).eval x3 = 0 := by
  rw [whole_eval, polyOf_opens ind h]
  unfold finalEval
  rw [horner_mul, sub_eq_zero]
  congr 1
  have e : (pointSets ps) = ((pointSets ps).zip u).map Prod.fst := (List.map_fst_zip hu.ge).symm
  conv_lhs => rw [e]
  rw [List.map_map]
  refine List.map_congr_left fun a ha => ?_
  have hs := (List.of_mem_zip ha).1
  have hz : vanishing a.1 x3 ≠ 0 := fun hc => hx (set_points hs ((vanishing_zero _ _).1 hc))
  simp only [Function.comp]
  rw [polyOf_opens ind (h' a ha)]
  unfold quotientAt
  rw [← vanishing_split (points ps) a.1 (points_spec ps).1 (set_nodup hs) (fun p hp => set_points hs hp) x3]
  field_simp

/-- All challenges of the opening before the last part. -/
theorem all_but_last {params : Params V} (ind : Independent params) {ps : List (Claim ρ V)} (hc : Consistent ps) (hf : Functional ps)
    (hfalse : ∃ q ∈ ps, ¬ Opens params q.object q.point q.value) (qPrime : Fr → Fr → V) (u : Fr → Fr → Fr → List Fr) :
    ∃ (B1 : Finset Fr) (B2 : Fr → Finset Fr) (B3 : Fr → Fr → Finset Fr) (B4 : Fr → Fr → Fr → Finset Fr),
      B1.card < ps.length ∧ (∀ x1, (B2 x1).card < ps.length) ∧ (∀ x1 x2, (B3 x1 x2).card ≤ (points ps).length + params.n) ∧
      (∀ x1 x2 x3, (B4 x1 x2 x3).card ≤ ps.length) ∧
      ∀ x1 x2 x3 x4, x3 ∉ points ps → (u x1 x2 x3).length = (pointSets ps).length → x1 ∉ B1 → x2 ∉ B2 x1 → x3 ∉ B3 x1 x2 →
        x4 ∉ B4 x1 x2 x3 → ¬ Opens params (finalPoint x1 x4 ps (qPrime x1 x2)) x3 (finalValue x1 x2 x3 x4 ps (u x1 x2 x3)) := by
  obtain ⟨q, hq, hno⟩ := hfalse
  obtain ⟨s, hs, hp, B1, hB1, hB1'⟩ := first hc hf hq hno
  have hlen : 0 < ps.length := List.length_pos_of_mem hq
  -- the second challenge
  have h2 : ∀ x1, ∃ B : Finset Fr, B.card < ps.length ∧ (x1 ∉ B1 →
      Opens params (setPoint x1 ps s) q.point (polyAt (polyOf params (setPoint x1 ps s)) q.point) → ∀ x2, x2 ∉ B →
      folded x2 ((pointSets ps).map fun s => vanishing (diffs (points ps) s) q.point *
        (polyAt (polyOf params (setPoint x1 ps s)) q.point - polyAt (setLow x1 ps s) q.point)) ≠ 0) := by
    intro x1
    by_cases h : x1 ∉ B1 ∧ Opens params (setPoint x1 ps s) q.point (polyAt (polyOf params (setPoint x1 ps s)) q.point)
    · obtain ⟨hx1, ho⟩ := h
      obtain ⟨B, hB, hB'⟩ := horner_bad (⊥ : Submodule Fr Fr) (vs := (pointSets ps).map fun s => vanishing (diffs (points ps) s) q.point *
        (polyAt (polyOf params (setPoint x1 ps s)) q.point - polyAt (setLow x1 ps s) q.point))
        ⟨_, List.mem_map.2 ⟨s, hs, rfl⟩, by
          rw [Submodule.mem_bot]
          refine mul_ne_zero ?_ ?_
          · rw [Ne, vanishing_zero]
            intro hmem
            have := (List.mem_filter.1 hmem).2
            simp [hp] at this
          · rw [sub_ne_zero, setLow_at hs hp]
            intro he
            exact hB1' x1 hx1 (he ▸ ho)⟩
      refine ⟨B, ?_, fun _ _ x2 hx2 h0 => hx2 (hB' x2 (by rw [h0]; exact Submodule.zero_mem _))⟩
      rw [List.length_map] at hB
      exact lt_of_lt_of_le hB (pointSets_spec ps).2.2
    · refine ⟨∅, by simpa using hlen, fun h1 h2 => absurd ⟨h1, h2⟩ h⟩
  choose B2 hB2 hB2' using h2
  have h4 : ∀ x1 x2 x3, ∃ B : Finset Fr, B.card ≤ ps.length ∧ (x3 ∉ points ps → (u x1 x2 x3).length = (pointSets ps).length →
      x1 ∉ B1 → x2 ∉ B2 x1 → x3 ∉ rootsOf (whole params x1 x2 ps (qPrime x1 x2)) → ∀ x4, x4 ∉ B →
      ¬ Opens params (finalPoint x1 x4 ps (qPrime x1 x2)) x3 (finalValue x1 x2 x3 x4 ps (u x1 x2 x3))) := by
    intro x1 x2 x3
    by_cases h : x3 ∉ points ps ∧ (u x1 x2 x3).length = (pointSets ps).length ∧ x1 ∉ B1 ∧ x2 ∉ B2 x1 ∧
        x3 ∉ rootsOf (whole params x1 x2 ps (qPrime x1 x2))
    · obtain ⟨a1, a2, a3, a4, a5⟩ := h
      obtain ⟨B, hB, hB'⟩ := fourth (params := params) ps x1 x2 x3 (qPrime x1 x2) a2 (by
        rintro ⟨c1, c2⟩
        refine a5 (mem_rootsOf (y := q.point) ?_ (third ind ps x1 x2 x3 _ a2 a1 c1 c2))
        rw [whole_eval, (vanishing_zero (points ps) q.point).2 (((points_spec ps).2 _).2 ⟨q, hq, rfl⟩), zero_mul, sub_zero]
        refine hB2' x1 a3 ?_ x2 a4
        have hz : ∃ v, (s, v) ∈ (pointSets ps).zip (u x1 x2 x3) := by
          obtain ⟨i, hi, rfl⟩ := List.mem_iff_getElem.1 hs
          exact ⟨(u x1 x2 x3)[i], List.mem_iff_getElem.2 ⟨i, by simp [a2, hi], by simp⟩⟩
        obtain ⟨v, hv⟩ := hz
        obtain ⟨p, r, h1, h2, -⟩ := c2 _ hv
        exact polyOf_self ⟨p, r, h1, h2⟩ q.point)
      exact ⟨B, hB, fun _ _ _ _ _ x4 hx4 ho => hx4 (hB' x4 ho)⟩
    · exact ⟨∅, by simp, fun b1 b2 b3 b4 b5 => absurd ⟨b1, b2, b3, b4, b5⟩ h⟩
  choose B4 hB4 hB4' using h4
  refine ⟨B1, B2, fun x1 x2 => rootsOf (whole params x1 x2 ps (qPrime x1 x2)), B4, hB1, hB2,
    fun x1 x2 => rootsOf_card _ (whole_degree params x1 x2 ps _), hB4, ?_⟩
  intro x1 x2 x3 x4 c1 c2 c3 c4 c5 c6
  exact hB4' x1 x2 x3 c1 c2 c3 c4 c5 x4 c6

/-- Everything. -/
theorem open_sound {params : Params V} (ok : Ok params) (ind : Independent params) {g0 : V} {gs : List V} (hg : params.g = g0 :: gs)
    {ps : List (Claim ρ V)} (hc : Consistent ps) (hf : Functional ps)
    (hfalse : ∃ q ∈ ps, ¬ Opens params q.object q.point q.value) (σ : Strategy V) :
    ∃ (B1 : Finset Fr) (B2 : Fr → Finset Fr) (B3 : Fr → Fr → Finset Fr) (B4 : Fr → Fr → Fr → Finset Fr)
      (bx : Fr → Fr → Fr → Fr → Finset Fr) (bz : Fr → Fr → Fr → Fr → Fr → Finset Fr)
      (bu : Fr → Fr → Fr → Fr → Fr → Fr → List Fr → Finset Fr),
      B1.card < ps.length ∧ (∀ x1, (B2 x1).card < ps.length) ∧ (∀ x1 x2, (B3 x1 x2).card ≤ (points ps).length + params.n) ∧
      (∀ x1 x2 x3, (B4 x1 x2 x3).card ≤ ps.length) ∧ (∀ x1 x2 x3 x4, (bx x1 x2 x3 x4).card ≤ 1) ∧
      (∀ x1 x2 x3 x4 xi, (bz x1 x2 x3 x4 xi).card ≤ 1) ∧ (∀ x1 x2 x3 x4 xi z us, (bu x1 x2 x3 x4 xi z us).card ≤ 2) ∧
      ∀ x1 x2 x3 x4 xi z (us : List Fr), us.length = params.k → x3 ∉ points ps → ¬ (σ.u x1 x2 x3).length < (pointSets ps).length →
        defect params g0 ps (σ.proof x1 x2 x3 x4 xi z us) x1 x2 x3 x4 xi z us = 0 →
        x1 ∈ B1 ∨ x2 ∈ B2 x1 ∨ x3 ∈ B3 x1 x2 ∨ x4 ∈ B4 x1 x2 x3 ∨ xi ∈ bx x1 x2 x3 x4 ∨ z ∈ bz x1 x2 x3 x4 xi ∨
          ∃ j, ∃ hj : j < us.length, us[j] ∈ bu x1 x2 x3 x4 xi z (us.take j) := by
  obtain ⟨B1, B2, B3, B4, h1, h2, h3, h4, h5⟩ := all_but_last ind hc hf hfalse σ.qPrime
    fun x1 x2 x3 => (σ.u x1 x2 x3).take (pointSets ps).length
  have h6 : ∀ x1 x2 x3 x4, ∃ (bx : Finset Fr) (bz : Fr → Finset Fr) (bu : Fr → Fr → List Fr → Finset Fr),
      bx.card ≤ 1 ∧ (∀ xi, (bz xi).card ≤ 1) ∧ (∀ xi z us, (bu xi z us).card ≤ 2) ∧
      (¬ Opens params (finalPoint x1 x4 ps (σ.qPrime x1 x2)) x3
          (finalValue x1 x2 x3 x4 ps ((σ.u x1 x2 x3).take (pointSets ps).length)) →
        ∀ xi z (us : List Fr), us.length = params.k →
        defect params g0 ps (σ.proof x1 x2 x3 x4 xi z us) x1 x2 x3 x4 xi z us = 0 →
        xi ∈ bx ∨ z ∈ bz xi ∨ ∃ j, ∃ hj : j < us.length, us[j] ∈ bu xi z (us.take j)) := by
    intro x1 x2 x3 x4
    by_cases ho : Opens params (finalPoint x1 x4 ps (σ.qPrime x1 x2)) x3
          (finalValue x1 x2 x3 x4 ps ((σ.u x1 x2 x3).take (pointSets ps).length))
    · exact ⟨∅, fun _ => ∅, fun _ _ _ => ∅, by simp, by simp, by simp, fun h => absurd ho h⟩
    · obtain ⟨bx, bz, bu, a1, a2, a3, a4⟩ := Spec.Ipa.sound_core ok ind hg ho (σ.ipa x1 x2 x3 x4)
      exact ⟨bx, bz, bu, a1, a2, a3, fun _ => a4⟩
  choose bx bz bu b1 b2 b3 b4 using h6
  refine ⟨B1, B2, B3, B4, bx, bz, bu, h1, h2, h3, h4, b1, b2, b3, ?_⟩
  intro x1 x2 x3 x4 xi z us hus hx hl hd
  by_cases c1 : x1 ∈ B1
  · exact .inl c1
  by_cases c2 : x2 ∈ B2 x1
  · exact .inr (.inl c2)
  by_cases c3 : x3 ∈ B3 x1 x2
  · exact .inr (.inr (.inl c3))
  by_cases c4 : x4 ∈ B4 x1 x2 x3
  · exact .inr (.inr (.inr (.inl c4)))
  refine .inr (.inr (.inr (.inr (b4 x1 x2 x3 x4 ?_ xi z us hus hd))))
  exact h5 x1 x2 x3 x4 hx (by simp; omega) c1 c2 c3 c4

end

end Verif.IpaOpen
