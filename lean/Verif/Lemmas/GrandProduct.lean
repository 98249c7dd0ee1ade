import Verif.Lemmas.LookupLemmas
import Verif.Lemmas.Arguments
import Mathlib.Algebra.Polynomial.Roots
import Mathlib.Tactic.LinearCombination

/-! Counting for the permutation and the lookup argument. -/

namespace Verif.Plonk

open Finset Polynomial Spec

/-- The product of `X + v i` over a finite set. -/
noncomputable def shiftPoly {ι : Type} (s : Finset ι) (v : ι → Fr) : Fr[X] := ∏ i ∈ s, (X + C (v i))

section Shift

variable {ι : Type} (s : Finset ι) (v : ι → Fr)

theorem shiftPoly_eval (x : Fr) : (shiftPoly s v).eval x = ∏ i ∈ s, (v i + x) := by
  unfold shiftPoly
  rw [eval_prod]
  apply prod_congr rfl
  intro i _
  simp [add_comm]

theorem shiftPoly_monic : (shiftPoly s v).Monic := monic_prod_of_monic _ _ fun _ _ => monic_X_add_C _

theorem shiftPoly_degree : (shiftPoly s v).natDegree = s.card := by
  unfold shiftPoly
  rw [natDegree_prod_of_monic _ _ fun _ _ => monic_X_add_C _]
  simp

theorem shiftPoly_ne : shiftPoly s v ≠ 0 := (shiftPoly_monic s v).ne_zero

end Shift

/-- The values that are roots. -/
theorem mem_zeros {p : Fr[X]} (hp : p ≠ 0) (x : Fr) : x ∈ p.roots.toFinset ↔ p.eval x = 0 := by
  rw [Multiset.mem_toFinset, mem_roots hp]; rfl

theorem card_zeros (p : Fr[X]) : p.roots.toFinset.card ≤ p.natDegree :=
  le_trans (Multiset.toFinset_card_le _) (card_roots' p)

theorem sub_degree {p q : Fr[X]} {m : Nat} (hp : p.natDegree ≤ m) (hq : q.natDegree ≤ m) :
    (p - q).natDegree ≤ m := le_trans (natDegree_sub_le p q) (max_le hp hq)

/-- If the value in one cell differs from the value in the next cell of its cycle, the two products of
the permutation argument differ, even when the last value of the running product is 0, except for few
challenges. -/
theorem perm_bad {ι : Type} [DecidableEq ι] (cells : Finset ι) (v lab : ι → Fr) (σ : ι → ι)
    (hlab : ∀ c ∈ cells, ∀ d ∈ cells, lab c = lab d → c = d)
    (hσ : ∀ c ∈ cells, σ c ∈ cells) (c0 : ι) (h0 : c0 ∈ cells) (hne : v c0 ≠ v (σ c0)) :
    ∃ (Bβ : Finset Fr) (Bγ : Fr → Finset Fr), Bβ.card ≤ cells.card ∧
      (∀ β, (Bγ β).card ≤ 2 * cells.card) ∧
      ∀ β γ zl, β ∉ Bβ → γ ∉ Bγ β → (zl = 0 ∨ zl = 1) →
        zl * ∏ c ∈ cells, (v c + β * lab (σ c) + γ) ≠ ∏ c ∈ cells, (v c + β * lab c + γ) := by
  let p : Fr → Fr[X] := fun β => shiftPoly cells fun c => v c + β * lab (σ c)
  let q : Fr → Fr[X] := fun β => shiftPoly cells fun c => v c + β * lab c
  refine ⟨cells.image fun d => (v d - v c0) / (lab (σ c0) - lab d),
    fun β => (p β - q β).roots.toFinset ∪ (q β).roots.toFinset, card_image_le, ?_, ?_⟩
  · intro β
    refine le_trans (card_union_le _ _) ?_
    have h1 := card_zeros (p β - q β)
    have h2 := card_zeros (q β)
    have h3 : (p β - q β).natDegree ≤ cells.card :=
      sub_degree (shiftPoly_degree _ _).le (shiftPoly_degree _ _).le
    rw [show (q β).natDegree = cells.card from shiftPoly_degree _ _] at h2
    omega
  · intro β γ zl hβ hγ hzl
    rw [← shiftPoly_eval cells (fun c => v c + β * lab (σ c)),
      ← shiftPoly_eval cells (fun c => v c + β * lab c)]
    have hdist : ∀ d ∈ cells, v c0 + β * lab (σ c0) ≠ v d + β * lab d := by
      intro d hd he
      by_cases hl : lab (σ c0) = lab d
      · have := hlab _ (hσ c0 h0) _ hd hl
        subst this
        rw [hl] at he
        exact hne (add_right_cancel he)
      · apply hβ
        rw [mem_image]
        refine ⟨d, hd, ?_⟩
        rw [div_eq_iff (sub_ne_zero.2 hl)]
        linear_combination -he
    have hpq : p β - q β ≠ 0 := by
      intro hz
      have hz : p β = q β := sub_eq_zero.1 hz
      have h1 : (p β).eval (-(v c0 + β * lab (σ c0))) = 0 := by
        show (shiftPoly _ _).eval _ = 0
        rw [shiftPoly_eval]
        exact prod_eq_zero h0 (by ring)
      rw [hz] at h1
      rw [show q β = shiftPoly cells _ from rfl, shiftPoly_eval, prod_eq_zero_iff] at h1
      obtain ⟨d, hd, h1⟩ := h1
      exact hdist d hd (by linear_combination -h1)
    rw [mem_union, not_or, mem_zeros hpq, mem_zeros (shiftPoly_ne _ _)] at hγ
    intro he
    rcases hzl with rfl | rfl
    · rw [zero_mul] at he
      exact hγ.2 he.symm
    · rw [one_mul] at he
      apply hγ.1
      rw [eval_sub]
      exact sub_eq_zero.2 he

/-- Equal products over lists of the same positions are rearrangements. -/
theorem shiftPoly_perm (u : Nat) (a b : Nat → Fr)
    (h : shiftPoly (range u) a = shiftPoly (range u) b) :
    ((List.range u).map a).Perm ((List.range u).map b) := by
  have key : ∀ a : Nat → Fr, (shiftPoly (range u) a).roots =
      (((List.range u).map a : List Fr) : Multiset Fr).map fun v => -v := by
    intro a
    have : shiftPoly (range u) a = (((((List.range u).map a : List Fr) : Multiset Fr).map
        fun v => -v).map fun v => X - C v).prod := by
      unfold shiftPoly
      rw [Finset.prod_eq_multiset_prod, Multiset.map_map, ← Multiset.map_coe, Multiset.map_map]
      congr 1
      apply Multiset.map_congr rfl
      intro i _
      simp
    rw [this, roots_multiset_prod_X_sub_C]
  have h2 := key a
  rw [h, key b] at h2
  have := Multiset.map_injective (f := fun v : Fr => -v) neg_injective h2
  exact (Multiset.coe_eq_coe.1 this).symm

/-- If some input is not in the table, then whatever the two permuted columns are, as long as they
obey the rule of adjacent rows, the two products of the lookup argument differ, even when the last
value of the running product is 0, except for few challenges. -/
theorem lookup_bad (u : Nat) (A S a s : Nat → Fr)
    (first : 0 < u → a 0 = s 0)
    (rows : ∀ i, i + 1 < u → a (i + 1) = s (i + 1) ∨ a (i + 1) = a i)
    (r : Nat) (hr : r < u) (hnot : ∀ r' < u, A r ≠ S r') :
    ∃ (Bβ : Finset Fr) (Bγ : Fr → Finset Fr), Bβ.card ≤ 2 * u ∧
      (∀ β, (Bγ β).card ≤ 2 * u) ∧
      ∀ β γ zl, β ∉ Bβ → γ ∉ Bγ β → (zl = 0 ∨ zl = 1) →
        zl * ((∏ i ∈ range u, (a i + β)) * ∏ i ∈ range u, (s i + γ)) ≠
          (∏ i ∈ range u, (A i + β)) * ∏ i ∈ range u, (S i + γ) := by
  have hnp : ¬ (((List.range u).map a).Perm ((List.range u).map A) ∧
      ((List.range u).map s).Perm ((List.range u).map S)) := by
    rintro ⟨h1, h2⟩
    have hs : ShowsLookup ((List.range u).map A) ((List.range u).map S) ((List.range u).map a)
        ((List.range u).map s) := by
      refine ⟨h1, h2, ?_, ?_⟩
      · simp only [List.getElem?_map]
        rw [List.getElem?_range (show 0 < u by omega)]
        simp [first (by omega)]
      · intro i hi
        simp only [List.length_map, List.length_range] at hi
        simp only [List.getElem?_map]
        rw [List.getElem?_range hi, List.getElem?_range (show i < u by omega)]
        simpa using rows i hi
    have := Lookup.shows_mem hs (A r) (List.mem_map_of_mem (List.mem_range.2 hr))
    obtain ⟨r', hr', he⟩ := List.mem_map.1 this
    exact hnot r' (List.mem_range.1 hr') he.symm
  simp only [← shiftPoly_eval]
  generalize hpa : shiftPoly (range u) a = pa
  generalize hpA : shiftPoly (range u) A = pA
  generalize hps : shiftPoly (range u) s = ps
  generalize hpS : shiftPoly (range u) S = pS
  have da : pa.natDegree = u := by rw [← hpa, shiftPoly_degree, card_range]
  have dA : pA.natDegree = u := by rw [← hpA, shiftPoly_degree, card_range]
  have ds : ps.natDegree = u := by rw [← hps, shiftPoly_degree, card_range]
  have dS : pS.natDegree = u := by rw [← hpS, shiftPoly_degree, card_range]
  have nA : pA ≠ 0 := hpA ▸ shiftPoly_ne _ _
  have nS : pS ≠ 0 := hpS ▸ shiftPoly_ne _ _
  have ms : ps.coeff u = 1 := by
    have := shiftPoly_monic (range u) s
    rw [hps] at this
    rw [← ds]; exact this
  have mS : pS.coeff u = 1 := by
    have := shiftPoly_monic (range u) S
    rw [hpS] at this
    rw [← dS]; exact this
  by_cases hpp : pa = pA
  · have hss : ps - pS ≠ 0 := by
      intro hz
      apply hnp
      refine ⟨shiftPoly_perm u a A (by rw [hpa, hpA, hpp]), shiftPoly_perm u s S ?_⟩
      rw [hps, hpS, sub_eq_zero.1 hz]
    refine ⟨pA.roots.toFinset, fun _ => (ps - pS).roots.toFinset ∪ pS.roots.toFinset, ?_, ?_, ?_⟩
    · have := card_zeros pA; omega
    · intro β
      refine le_trans (card_union_le _ _) ?_
      have h1 := card_zeros (ps - pS)
      have h2 := card_zeros pS
      have h3 := sub_degree (p := ps) (q := pS) (m := u) ds.le dS.le
      omega
    · intro β γ zl hβ hγ hzl he
      rw [mem_zeros nA] at hβ
      rw [mem_union, not_or, mem_zeros hss, mem_zeros nS] at hγ
      rcases hzl with rfl | rfl
      · rw [zero_mul] at he
        exact (mul_ne_zero hβ hγ.2) he.symm
      · rw [one_mul, hpp] at he
        apply hγ.1
        rw [eval_sub, mul_left_cancel₀ hβ he, sub_self]
  · have hd : pa - pA ≠ 0 := sub_ne_zero.2 hpp
    refine ⟨(pa - pA).roots.toFinset ∪ pA.roots.toFinset, fun β =>
      (C (pa.eval β) * ps - C (pA.eval β) * pS).roots.toFinset ∪ pS.roots.toFinset, ?_, ?_, ?_⟩
    · refine le_trans (card_union_le _ _) ?_
      have h1 := card_zeros (pa - pA)
      have h2 := card_zeros pA
      have h3 := sub_degree (p := pa) (q := pA) (m := u) da.le dA.le
      omega
    · intro β
      refine le_trans (card_union_le _ _) ?_
      have h1 := card_zeros (C (pa.eval β) * ps - C (pA.eval β) * pS)
      have h2 := card_zeros pS
      have h3 := sub_degree (p := C (pa.eval β) * ps) (q := C (pA.eval β) * pS) (m := u)
        (le_trans (natDegree_C_mul_le _ _) ds.le) (le_trans (natDegree_C_mul_le _ _) dS.le)
      omega
    · intro β γ zl hβ hγ hzl he
      rw [mem_union, not_or, mem_zeros hd, mem_zeros nA, eval_sub] at hβ
      have hne : C (pa.eval β) * ps - C (pA.eval β) * pS ≠ 0 := by
        intro hz
        have := congrArg (fun p => p.coeff u) hz
        simp only [coeff_sub, coeff_C_mul, ms, mS, mul_one, coeff_zero] at this
        exact hβ.1 this
      rw [mem_union, not_or, mem_zeros hne, mem_zeros nS] at hγ
      rcases hzl with rfl | rfl
      · rw [zero_mul] at he
        exact (mul_ne_zero hβ.2 hγ.2) he.symm
      · rw [one_mul] at he
        apply hγ.1
        simp only [eval_sub, eval_mul, eval_C]
        exact sub_eq_zero.2 he

/-- Horner's rule as a polynomial. -/
noncomputable def hornerPoly (l : List Fr) : Fr[X] := l.foldl (fun acc v => acc * X + C v) 0

theorem hornerPoly_eval (x : Fr) (l : List Fr) :
    (hornerPoly l).eval x = l.foldl (fun acc v => acc * x + v) 0 := by
  have := sumPoly_eval x l
  exact this

/-- Different lists of the same length are compressed to different values except for few
challenges. -/
theorem horner_bad (l l' : List Fr) (hl : l.length = l'.length) (h : l ≠ l') :
    ∃ B : Finset Fr, B.card ≤ l.length - 1 ∧ ∀ x ∉ B,
      l.foldl (fun acc v => acc * x + v) 0 ≠ l'.foldl (fun acc v => acc * x + v) 0 := by
  have hc : ∀ (m : List Fr) (i : Nat), (hornerPoly m).coeff i = m.reverse[i]?.getD 0 :=
    fun m i => sumPoly_coeff m i
  have hne : hornerPoly l - hornerPoly l' ≠ 0 := by
    intro hz
    apply h
    rw [← List.reverse_inj]
    apply List.ext_getElem (by simpa using hl)
    intro i h1 h2
    have := congrArg (fun p => p.coeff i) hz
    simp only [coeff_sub, hc, coeff_zero] at this
    rw [List.getElem?_eq_getElem h1, List.getElem?_eq_getElem h2] at this
    simpa using sub_eq_zero.1 this
  have hdeg : ∀ m : List Fr, (hornerPoly m).natDegree ≤ m.length - 1 := by
    intro m
    rw [natDegree_le_iff_coeff_eq_zero]
    intro N hN
    rw [hc, List.getElem?_eq_none (by simp; omega)]
    rfl
  refine ⟨(hornerPoly l - hornerPoly l').roots.toFinset, ?_, ?_⟩
  · refine le_trans (card_zeros _) (sub_degree (hdeg l) ?_)
    rw [hl]
    exact hdeg l'
  · intro x hx he
    apply hx
    rw [mem_zeros hne, eval_sub, hornerPoly_eval, hornerPoly_eval, he, sub_self]

/-- A list that is not all zero is combined to a nonzero value except for few challenges. -/
theorem combine_bad (l : List Fr) (h : ∃ v ∈ l, v ≠ 0) :
    ∃ B : Finset Fr, B.card ≤ l.length - 1 ∧ ∀ x ∉ B, l.foldl (fun acc v => acc * x + v) 0 ≠ 0 := by
  obtain ⟨B, h1, h2⟩ := horner_bad l (List.replicate l.length 0) (by simp) (by
    intro he
    obtain ⟨v, hv, hn⟩ := h
    rw [he] at hv
    exact hn (List.eq_of_mem_replicate hv))
  refine ⟨B, h1, fun x hx he => h2 x hx (he.trans ?_)⟩
  generalize l.length = m
  symm
  induction m with
  | zero => rfl
  | succ m ih => rw [List.replicate_succ, List.foldl_cons]; simpa using ih

end Verif.Plonk
