import Verif.Lemmas.IpaOpenSound
import Mathlib.Data.List.GetD
import Mathlib.LinearAlgebra.Lagrange

/-! What the prover of the opening without a trusted setup computes. -/

namespace Verif.IpaOpen

open Shplonk (Claim low low_spec vanishing vanishing_zero vanishing_cons vanishingPoly vanishingPoly_eval mapM_exists)
open Plonk
open Spec Spec.IpaOpen
open Spec.Ipa (Ok dot_add dot_mul)
open Ipa (Params)
open Polynomial

variable {ρ M : Type} [DecidableEq ρ] [AddCommGroup M] [Module Fr M]

/-- The polynomial and the blinding factor, as a vector. -/
structure Sum (params : Params M) (t : Fr) (p : List Fr) (r : Fr) (os : List (List Fr × Fr)) : Prop where
  length : p.length = params.n
  value : ∀ x, polyAt p x = folded t (os.map fun o => polyAt o.1 x)
  commitment : commitment params (p, r) = folded t (os.map (commitment params))

theorem mulAdd_ok {params : Params M} {p o : List Fr} (hp : p.length = params.n) (ho : o.length = params.n) (x : Fr) :
    ∃ q, mulAdd x p o = .ok q ∧ q.length = params.n ∧ (∀ y, polyAt q y = x * polyAt p y + polyAt o y) ∧
      ∀ r s, commitment params (q, r * x + s) = x • commitment params (p, r) + commitment params (o, s) := by
  have e : mulAdd x p o = .ok (List.zipWith (· + ·) (p.map (· * x)) o) := by
    unfold mulAdd Shplonk.addPoly Shplonk.mulPoly
    rw [if_neg (by rw [List.length_map]; omega)]
    congr 1
    refine List.ext_getElem (by simp; omega) fun i h1 h2 => ?_
    have hi : i < o.length := by simp at h2; omega
    simp [hi]
  have hl : (p.map (· * x)).length = o.length := by simp [hp, ho]
  refine ⟨_, e, by simp [hp, ho], fun y => ?_, fun r s => ?_⟩
  · obtain ⟨c, h1, h2, h3⟩ := Shplonk.addPoly_ok (a := Shplonk.mulPoly p x) (b := o) (by rw [Shplonk.mulPoly_length, hp, ho])
    have : mulAdd x p o = .ok c := h1
    rw [e] at this
    rw [Except.ok.inj this, h3, Shplonk.mulPoly_at]
  · unfold commitment
    dsimp only
    rw [dot_add hl, dot_mul]
    module

theorem mulAdd_sum {params : Params M} {t : Fr} {p : List Fr} {r : Fr} {os : List (List Fr × Fr)} (h : Sum params t p r os)
    {o : List Fr × Fr} (ho : o.1.length = params.n) :
    ∃ q, mulAdd t p o.1 = .ok q ∧ Sum params t q (r * t + o.2) (os ++ [o]) := by
  obtain ⟨q, h1, h2, h3, h4⟩ := mulAdd_ok h.length ho t
  refine ⟨q, h1, h2, fun x => ?_, ?_⟩
  · rw [h3, List.map_append, List.map_singleton, horner_append, h.value, smul_eq_mul]
  · rw [h4, List.map_append, List.map_singleton, horner_append, h.commitment]

theorem sum_one {params : Params M} (t : Fr) {o : List Fr × Fr} (ho : o.1.length = params.n) : Sum params t o.1 o.2 [o] :=
  ⟨ho, fun x => by rw [List.map_singleton, horner_cons]; rfl, by rw [List.map_singleton, horner_cons]; rfl⟩

theorem mulAdd_fold {params : Params M} (t : Fr) : ∀ (os : List (List Fr × Fr)) (p : List Fr) (r : Fr) (before : List (List Fr × Fr)),
    (∀ o ∈ os, o.1.length = params.n) → Sum params t p r before →
    ∃ q, (os.map Prod.fst).foldlM (mulAdd t) p = .ok q ∧
      Sum params t q ((os.map Prod.snd).foldl (fun acc b => acc * t + b) r) (before ++ os)
  | [], p, r, before, _, h => ⟨p, rfl, by simpa using h⟩
  | o :: os, p, r, before, ho, h => by
    obtain ⟨q, h1, h2⟩ := mulAdd_sum h (ho o (by simp))
    obtain ⟨q', h3, h4⟩ := mulAdd_fold t os q _ _ (fun o h => ho o (by simp [h])) h2
    refine ⟨q', ?_, ?_⟩
    · rw [List.map_cons, List.foldlM_cons, h1]
      exact h3
    · rw [List.map_cons, List.foldl_cons]
      simpa using h4

/-- The polynomial of a set. -/
theorem combine_fold {params : Params M} (t : Fr) (o : List Fr × Fr) (os : List (List Fr × Fr))
    (h : ∀ o' ∈ o :: os, o'.1.length = params.n) :
    ∃ p r, (o :: os).foldlM (combineStep t) (none, 0) = .ok (some p, r) ∧ Sum params t p r (o :: os) := by
  have key : ∀ (os : List (List Fr × Fr)) (p : List Fr) (r : Fr) (before : List (List Fr × Fr)),
      (∀ o ∈ os, o.1.length = params.n) → Sum params t p r before →
      ∃ q s, os.foldlM (combineStep t) (some p, r) = .ok (some q, s) ∧ Sum params t q s (before ++ os) := by
    intro os
    induction os with
    | nil => intro p r before _ h; exact ⟨p, r, rfl, by simpa using h⟩
    | cons o os ih =>
      intro p r before ho h
      obtain ⟨q, h1, h2⟩ := mulAdd_sum h (ho o (by simp))
      obtain ⟨q', s, h3, h4⟩ := ih q _ _ (fun o h => ho o (by simp [h])) h2
      refine ⟨q', s, ?_, by simpa using h4⟩
      rw [List.foldlM_cons]
      have : combineStep t (some p, r) o = .ok (some q, r * t + o.2) := by
        unfold combineStep
        unfold mulAdd at h1
        dsimp only
        rw [h1]
        rfl
      rw [this]
      exact h3
  obtain ⟨q, s, h1, h2⟩ := key os o.1 o.2 [o] (fun o' h' => h o' (by simp [h'])) (sum_one t (h o (by simp)))
  refine ⟨q, s, ?_, h2⟩
  rw [List.foldlM_cons]
  have : combineStep t (none, 0) o = .ok (some o.1, o.2) := by
    unfold combineStep
    dsimp only
    rw [zero_mul, zero_add]
    rfl
  rw [this]
  exact h1

/-- Division by the points of a set, one after the other. -/
theorem divisions : ∀ (s a : List Fr), s.length ≤ a.length →
    ∃ q, s.foldlM kateDivision a = .ok q ∧ q.length + s.length = a.length ∧
      ∃ rem : Fr[X], rem.degree < s.length ∧ ∀ x, polyAt a x = vanishing s x * polyAt q x + rem.eval x
  | [], a, _ => ⟨a, rfl, by simp, 0, by simp, fun x => by simp [vanishing]⟩
  | b :: s, a, h => by
    rw [List.length_cons] at h
    obtain ⟨q, h1, h2, h3⟩ := kateDivision_spec a b (List.ne_nil_of_length_pos (by omega))
    obtain ⟨q', h4, h5, rem, h6, h7⟩ := divisions s q (by omega)
    refine ⟨q', ?_, by rw [List.length_cons]; omega, (X - C b) * rem + C (polyAt a b), ?_, fun x => ?_⟩
    · rw [List.foldlM_cons, h1]
      exact h4
    · refine lt_of_le_of_lt (degree_add_le _ _) (max_lt ?_ (lt_of_le_of_lt degree_C_le (by rw [List.length_cons]; norm_cast; omega)))
      by_cases hr : rem = 0
      · simp [hr]
      · rw [degree_mul, degree_X_sub_C, degree_eq_natDegree hr] at *
        rw [List.length_cons]
        norm_cast at h6 ⊢
        omega
    · rw [h3, h7, vanishing_cons]
      simp only [eval_add, eval_mul, eval_sub, eval_X, eval_C]
      ring

theorem toPoly_degree_lt (c : List Fr) : (toPoly c).degree < c.length := by
  unfold toPoly
  refine lt_of_le_of_lt (degree_sum_le _ _) ?_
  rw [Finset.sup_lt_iff (by simp)]
  intro i hi
  exact lt_of_le_of_lt (degree_C_mul_X_pow_le _ _) (by simpa using hi)

/-- The quotient of a set. -/
theorem quotient_ok {n : Nat} {s p low : List Fr} (hs : s.Nodup) (hn : s.length ≤ n) (hp : p.length = n) (hl : low.length = s.length)
    (h : ∀ a ∈ s, polyAt low a = polyAt p a) :
    ∃ q, quotient n s p = .ok q ∧ q.length = n ∧ ∀ x, polyAt p x = vanishing s x * polyAt q x + polyAt low x := by
  obtain ⟨q, h1, h2, rem, h3, h4⟩ := divisions s p (by omega)
  refine ⟨Domain.resize q n, ?_, length_resize q n (by omega), fun x => ?_⟩
  · unfold quotient
    rw [h1]
    rfl
  · rw [polyAt_resize q n x (by omega), h4]
    congr 1
    rw [← toPoly_eval]
    congr 1
    refine Polynomial.eq_of_degree_sub_lt_of_eval_finset_eq s.toFinset ?_ ?_
    · rw [List.toFinset_card_of_nodup hs]
      refine lt_of_le_of_lt (degree_sub_le _ _) (max_lt h3 ?_)
      have := toPoly_degree_lt low
      rwa [hl] at this
    · intro a ha
      have ha : a ∈ s := by simpa using ha
      rw [toPoly_eval, h a ha, h4, (vanishing_zero s a).2 ha, zero_mul, zero_add]

theorem hornerPoly_ok {params : Params M} (t : Fr) (o : List Fr) (os : List (List Fr)) (h : ∀ p ∈ o :: os, p.length = params.n) :
    ∃ q, hornerPoly t (o :: os) = .ok q ∧ q.length = params.n ∧ ∀ x, polyAt q x = folded t ((o :: os).map fun o => polyAt o x) := by
  obtain ⟨q, h1, h2⟩ := mulAdd_fold (params := params) t (os.map fun p => (p, 0)) o 0 [(o, 0)] (by
    intro o ho
    obtain ⟨p, hp, rfl⟩ := List.mem_map.1 ho
    exact h p (by simp [hp])) (sum_one t (o := (o, 0)) (h o (by simp)))
  refine ⟨q, ?_, h2.length, fun x => ?_⟩
  · rw [List.map_map] at h1
    have : (Prod.fst ∘ fun p : List Fr => (p, (0 : Fr))) = id := rfl
    rw [this, List.map_id] at h1
    exact h1
  · rw [h2.value]
    congr 1
    simp

section

variable {qs : List (Claim ρ (List Fr × Fr))}

theorem combine_ok {params : Params M} (hl : ∀ q ∈ qs, q.object.1.length = params.n) (x1 : Fr) {i : Nat} (hi : i < (pointSets qs).length) :
    ∃ p r, combine x1 ((firsts qs).map (dataOf qs)) i = .ok (some p, r) ∧
      Sum params x1 p r ((group qs (pointSets qs)[i]).map Claim.object) := by
  unfold combine
  rw [members_eq qs hi, List.map_map]
  have e : (Data.object ∘ dataOf qs) = Claim.object := rfl
  rw [e]
  obtain ⟨q, l, hq⟩ := List.exists_cons_of_ne_nil (group_ne qs (List.getElem_mem hi))
  have hmem : ∀ o ∈ (group qs (pointSets qs)[i]).map Claim.object, o.1.length = params.n := by
    intro o ho
    obtain ⟨a, ha, rfl⟩ := List.mem_map.1 ho
    exact hl a (mem_group ha).1
  rw [hq, List.map_cons] at hmem ⊢
  exact combine_fold x1 _ _ hmem

/-- The polynomials of the sets. -/
theorem combines_ok {params : Params M} (hl : ∀ q ∈ qs, q.object.1.length = params.n) (x1 : Fr) :
    ∃ out : List (List Fr × Fr), (List.range (pointSets qs).length).mapM (combine x1 ((firsts qs).map (dataOf qs))) =
        .ok (out.map fun o => (some o.1, o.2)) ∧
      List.Forall₂ (fun s o => Sum params x1 o.1 o.2 ((group qs s).map Claim.object)) (pointSets qs) out := by
  have key : ∀ l : List Nat, (∀ i ∈ l, i < (pointSets qs).length) →
      ∃ out : List (List Fr × Fr), l.mapM (combine x1 ((firsts qs).map (dataOf qs))) = .ok (out.map fun o => (some o.1, o.2)) ∧
      List.Forall₂ (fun s o => Sum params x1 o.1 o.2 ((group qs s).map Claim.object)) (l.map fun i => (pointSets qs).getD i []) out := by
    intro l
    induction l with
    | nil => intro _; exact ⟨[], rfl, .nil⟩
    | cons i l ih =>
      intro h
      have hi := h i (by simp)
      obtain ⟨p, r, h1, h2⟩ := combine_ok hl x1 hi
      obtain ⟨out, h3, h4⟩ := ih fun j hj => h j (by simp [hj])
      refine ⟨(p, r) :: out, ?_, ?_⟩
      · rw [List.mapM_cons, h1, h3]
        rfl
      · rw [List.map_cons, List.getD_eq_getElem _ _ hi]
        exact .cons h2 h4
  obtain ⟨out, h1, h2⟩ := key (List.range (pointSets qs).length) (by simp)
  refine ⟨out, h1, ?_⟩
  have : ((List.range (pointSets qs).length).map fun i => (pointSets qs).getD i []) = pointSets qs := by
    refine List.ext_getElem (by simp) fun i h1 h2 => ?_
    simp [h2]
  rwa [this] at h2

/-- The values of the claims are those of the polynomials. -/
theorem setValue_true (hc : Consistent qs) (ht : ∀ q ∈ qs, q.value = polyAt q.object.1 q.point) (x1 : Fr) {s : List Fr} {p : Fr} (hp : p ∈ s) :
    setValue x1 qs s p = folded x1 (((group qs s).map Claim.object).map fun o => polyAt o.1 p) := by
  unfold setValue
  rw [List.map_map]
  congr 1
  refine List.map_congr_left fun q hq => ?_
  obtain ⟨h1, h2⟩ := mem_group hq
  obtain ⟨q', h3, h4, h5, h6⟩ := value_mem qs (r := q.ref) (p := p) (by rw [h2]; exact hp)
  rw [h6, ht q' h3, h5, hc q' h3 q h1 h4]
  rfl

theorem unwraps (out : List (List Fr × Fr)) :
    (out.map fun o => ((some o.1, o.2) : Option (List Fr) × Fr)).mapM (fun q => unwrap q.1) = .ok (out.map Prod.fst) := by
  induction out with
  | nil => rfl
  | cons o out ih =>
    rw [List.map_cons, List.mapM_cons, ih]
    rfl

theorem quotients_ok {params : Params M} (hc : Consistent qs) (ht : ∀ q ∈ qs, q.value = polyAt q.object.1 q.point) (x1 : Fr)
    (hn : (points qs).length ≤ params.n) : ∀ {sets : List (List Fr)} {out : List (List Fr × Fr)}, (∀ s ∈ sets, s ∈ pointSets qs) →
    List.Forall₂ (fun s o => Sum params x1 o.1 o.2 ((group qs s).map Claim.object)) sets out →
    ∃ quo, (sets.zip (out.map Prod.fst)).mapM (fun s => quotient params.n s.1 s.2) = .ok quo ∧ quo.length = sets.length ∧
      (∀ q ∈ quo, q.length = params.n) ∧
      ∀ x3, x3 ∉ points qs → (quo.map fun q => polyAt q x3) =
        (sets.zip (out.map fun o => polyAt o.1 x3)).map fun e => quotientAt x1 x3 qs e.1 e.2
  | [], _, _, .nil => ⟨[], rfl, rfl, by simp, fun _ _ => rfl⟩
  | s :: sets, o :: out, hs, .cons h hf => by
    have hmem := hs s (by simp)
    have hlen : s.length ≤ params.n := by
      refine le_trans ?_ hn
      exact ((set_nodup hmem).subperm fun p hp => set_points hmem hp).length_le
    obtain ⟨q, h1, h2, h3⟩ := quotient_ok (low := setLow x1 qs s) (set_nodup hmem) hlen h.length (setLow_length hmem) (fun a ha => by
      rw [setLow_at hmem ha, setValue_true hc ht x1 ha, h.value])
    obtain ⟨quo, h4, h5, h6, h7⟩ := quotients_ok hc ht x1 hn (fun s h => hs s (by simp [h])) hf
    refine ⟨q :: quo, ?_, by simp [h5], ?_, fun x3 hx => ?_⟩
    · rw [List.map_cons, List.zip_cons_cons, List.mapM_cons, h1, h4]
      rfl
    · intro a ha
      rcases List.mem_cons.1 ha with rfl | ha
      · exact h2
      · exact h6 a ha
    · rw [List.map_cons, List.map_cons, List.zip_cons_cons, List.map_cons, h7 x3 hx]
      congr 1
      have hz : vanishing s x3 ≠ 0 := fun hc => hx (set_points hmem ((vanishing_zero _ _).1 hc))
      unfold quotientAt
      rw [h3]
      field_simp
      ring

/-- What the prover computes: a polynomial that has the value that the verifier expects, and whose commitment is the one that the
verifier expects. -/
theorem prover_ok {params : Params M} (ok : Ok params) (hne : qs ≠ []) (hc : Consistent qs)
    (ht : ∀ q ∈ qs, q.value = polyAt q.object.1 q.point) (hl : ∀ q ∈ qs, q.object.1.length = params.n)
    (hn : (points qs).length ≤ params.n) {x3 : Fr} (hx : x3 ∉ points qs) (x1 x2 qPrimeBlind x4 : Fr) :
    ∃ (qPrime p : List Fr) (r : Fr) (u : List Fr), qPrime.length = params.n ∧ p.length = params.n ∧ u.length = (pointSets qs).length ∧
      (∀ draws xi z us, prove params qs x1 x2 qPrimeBlind x3 x4 draws xi z us = (do
        let ipa ← Ipa.prove params draws p r x3 xi z us
        return ⟨commitment params (qPrime, qPrimeBlind), u, ipa⟩)) ∧
      polyAt p x3 = finalValue x1 x2 x3 x4 qs u ∧
      commitment params (p, r) = folded x4 (commitment params (qPrime, qPrimeBlind) ::
        (pointSets qs).map fun s => folded x1 ((group qs s).map fun q => commitment params q.object)) := by
  obtain ⟨out, o1, o2⟩ := combines_ok hl x1
  obtain ⟨quo, q1, q2, q3, q4⟩ := quotients_ok hc ht x1 hn (fun s h => h) o2
  have hpos : quo ≠ [] := by
    obtain ⟨q, hq⟩ := List.exists_mem_of_ne_nil qs hne
    obtain ⟨s, hs, -⟩ := covers qs hq
    exact List.ne_nil_of_length_pos (by rw [q2]; exact List.length_pos_of_mem hs)
  obtain ⟨a, l, rfl⟩ := List.exists_cons_of_ne_nil hpos
  obtain ⟨qPrime, r1, r2, r3⟩ := hornerPoly_ok (params := params) x2 a l q3
  have hout : ∀ o ∈ out, o.1.length = params.n := by
    intro o ho
    obtain ⟨s, -, h⟩ := Shplonk.forall₂_right o2 ho
    exact h.length
  obtain ⟨p, s1, s2⟩ := mulAdd_fold (params := params) x4 out qPrime qPrimeBlind [(qPrime, qPrimeBlind)] hout
    (sum_one x4 (o := (qPrime, qPrimeBlind)) r2)
  have hvals : polyAt qPrime x3 = finalEval x1 x2 x3 qs (out.map fun o => polyAt o.1 x3) := by
    rw [r3, q4 x3 hx]
    rfl
  refine ⟨qPrime, p, _, out.map fun o => polyAt o.1 x3, r2, s2.length, by simp [o2.length_eq], fun draws xi z us => ?_, ?_, s2.commitment.trans ?_⟩
  · unfold prove
    rw [intermediateSets_ok]
    simp only [bind, Except.bind]
    rw [o1]
    dsimp only
    rw [unwraps]
    dsimp only
    rw [q1]
    dsimp only
    rw [r1]
    dsimp only
    rw [Spec.Ipa.commit_eq params ok r2]
    dsimp only
    rw [s1]
    dsimp only
    rw [List.map_map, List.map_map]
    have e1 : ((fun x : Option (List Fr) × Fr => x.2) ∘ fun o : List Fr × Fr => ((some o.1, o.2) : Option (List Fr) × Fr)) = Prod.snd := rfl
    have e2 : ((fun p => evalPolynomial p x3) ∘ Prod.fst) = fun o : List Fr × Fr => polyAt o.1 x3 := by
      funext o
      exact evalPolynomial_eq _ _
    rw [e1, e2]
    rfl
  · rw [s2.value]
    unfold finalValue
    rw [List.singleton_append, List.map_cons, hvals]
  · rw [List.singleton_append, List.map_cons]
    congr 2
    clear q4 q3 q2 q1 o1 s1 s2 hout r1 r2 r3 hvals
    generalize pointSets qs = sets at o2 ⊢
    induction o2 with
    | nil => rfl
    | cons h _ ih =>
      rw [List.map_cons, List.map_cons, ih]
      congr 1
      have := h.commitment
      rw [List.map_map] at this
      exact this

end

/-- Same claims, same numbers. -/
theorem finalValue_same {T T' : Type} {R : T → T' → Prop} {ps : List (Claim ρ T)} {cs : List (Claim ρ T')} (h : List.Forall₂ (Same R) ps cs)
    (x1 x2 x3 x4 : Fr) (u : List Fr) : finalValue x1 x2 x3 x4 cs u = finalValue x1 x2 x3 x4 ps u := by
  have h1 : ∀ s p, setValue x1 cs s p = setValue x1 ps s p := by
    intro s p
    unfold setValue
    congr 1
    have : ∀ {a : List (Claim ρ T)} {b : List (Claim ρ T')}, List.Forall₂ (Same R) a b →
        (b.map fun q => valueAt (own cs q.ref) p) = a.map fun q => valueAt (own ps q.ref) p := by
      intro a b hab
      induction hab with
      | nil => rfl
      | cons h' _ ih => rw [List.map_cons, List.map_cons, ih, h'.ref, value_same h]
    exact this (group_same h s)
  have h2 : ∀ s, setLow x1 cs s = setLow x1 ps s := by
    intro s
    unfold setLow
    congr 1
    exact List.map_congr_left fun p _ => h1 s p
  unfold finalValue finalEval
  rw [pointSets_same h]
  have h3 : (fun e : List Fr × Fr => quotientAt x1 x3 cs e.1 e.2) = fun e => quotientAt x1 x3 ps e.1 e.2 := by
    funext e
    unfold quotientAt
    rw [h2]
  rw [h3]

end Verif.IpaOpen
