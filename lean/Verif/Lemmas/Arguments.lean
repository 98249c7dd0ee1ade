import Verif.Spec.Arguments
import Mathlib.Algebra.MvPolynomial.SchwartzZippel
import Mathlib.Algebra.MvPolynomial.CommRing
import Mathlib.Algebra.Polynomial.Roots
import Mathlib.Data.Set.Card

/-! Counting arguments for the running products and sums (helper for the property theorems). -/

namespace Verif

open Spec Polynomial

theorem card_Fr : Nat.card Fr = P := Nat.card_zmod P

/-- A nonzero polynomial of total degree at most `d` has few zeros. -/
theorem zeros_bound {n d : Nat} {p : MvPolynomial (Fin n) Fr} (hp : p ≠ 0) (hd : p.totalDegree ≤ d) :
    {x : Fin n → Fr | MvPolynomial.eval x p = 0}.ncard * P ≤ d * P ^ n := by
  classical
  have hP : (0 : ℚ≥0) < (P : ℚ≥0) := by
    have : 0 < P := (Fact.out : P.Prime).pos
    exact_mod_cast this
  have h := MvPolynomial.schwartz_zippel_totalDegree hp (Finset.univ : Finset Fr)
  have hc : ((Finset.univ : Finset Fr).card : ℚ≥0) = P := by
    rw [Finset.card_univ, ← Nat.card_eq_fintype_card, card_Fr]
  rw [hc, div_le_div_iff₀ (by positivity) hP] at h
  have e : {x : Fin n → Fr | MvPolynomial.eval x p = 0}.ncard =
      (Finset.filter (fun f => MvPolynomial.eval f p = 0)
        (Fintype.piFinset fun _ : Fin n => (Finset.univ : Finset Fr))).card := by
    rw [← Set.ncard_coe_finset]
    congr 1
    ext x
    simp
  rw [e]
  have h2 : (d : ℚ≥0) * P ^ n ≥ p.totalDegree * P ^ n := by
    have : (p.totalDegree : ℚ≥0) ≤ d := by exact_mod_cast hd
    gcongr
  have h3 := le_trans h h2
  exact_mod_cast h3

/-! ### Products -/

/-- The product of a table as a polynomial in the challenges. -/
noncomputable def prodPoly {n : Nat} (a d e f : Fin n) (T : List (Fr × Fr × Fr)) :
    MvPolynomial (Fin n) Fr :=
  (T.map fun t => MvPolynomial.X a - MvPolynomial.C t.1 * MvPolynomial.X d -
    MvPolynomial.C t.2.1 * MvPolynomial.X e - MvPolynomial.C t.2.2 * MvPolynomial.X f).prod

theorem prodPoly_eval {n : Nat} (a d e f : Fin n) (T : List (Fr × Fr × Fr)) (x : Fin n → Fr) :
    MvPolynomial.eval x (prodPoly a d e f T) = tableProduct (x a) (x d) (x e) (x f) T := by
  unfold prodPoly tableProduct
  rw [map_list_prod, List.map_map]
  congr 1
  apply List.map_congr_left
  intro t _
  simp only [Function.comp_apply, map_sub, map_mul, MvPolynomial.eval_X, MvPolynomial.eval_C,
    rowFactor]
  ring

theorem linear_degree {n : Nat} (a d e f : Fin n) (x y z : Fr) :
    (MvPolynomial.X a - MvPolynomial.C x * MvPolynomial.X d -
      MvPolynomial.C y * MvPolynomial.X e - MvPolynomial.C z * MvPolynomial.X f :
      MvPolynomial (Fin n) Fr).totalDegree ≤ 1 := by
  have h : ∀ (c : Fr) (i : Fin n), (MvPolynomial.C c * MvPolynomial.X i :
      MvPolynomial (Fin n) Fr).totalDegree ≤ 1 := by
    intro c i
    refine le_trans (MvPolynomial.totalDegree_mul _ _) ?_
    rw [MvPolynomial.totalDegree_C, MvPolynomial.totalDegree_X]
  refine le_trans (MvPolynomial.totalDegree_sub _ _) (max_le ?_ (h z f))
  refine le_trans (MvPolynomial.totalDegree_sub _ _) (max_le ?_ (h y e))
  refine le_trans (MvPolynomial.totalDegree_sub _ _) (max_le ?_ (h x d))
  rw [MvPolynomial.totalDegree_X]

theorem prodPoly_degree {n : Nat} (a d e f : Fin n) (T : List (Fr × Fr × Fr)) :
    (prodPoly a d e f T).totalDegree ≤ T.length := by
  induction T with
  | nil => simp [prodPoly]
  | cons t T ih =>
    have e1 : prodPoly a d e f (t :: T) = (MvPolynomial.X a - MvPolynomial.C t.1 * MvPolynomial.X d -
        MvPolynomial.C t.2.1 * MvPolynomial.X e - MvPolynomial.C t.2.2 * MvPolynomial.X f) *
        prodPoly a d e f T := by
      unfold prodPoly; rw [List.map_cons, List.prod_cons]
    rw [e1]
    refine le_trans (MvPolynomial.totalDegree_mul _ _) ?_
    have := linear_degree a d e f t.1 t.2.1 t.2.2
    rw [List.length_cons]
    omega

/-- The three cells of a row as a linear form. -/
noncomputable def linForm (t : Fr × Fr × Fr) : MvPolynomial (Fin 3) Fr :=
  MvPolynomial.C t.1 * MvPolynomial.X 0 + MvPolynomial.C t.2.1 * MvPolynomial.X 1 +
    MvPolynomial.C t.2.2 * MvPolynomial.X 2

theorem linForm_inj : Function.Injective linForm := by
  rintro ⟨x, y, z⟩ ⟨x', y', z'⟩ h
  have h0 := congrArg (MvPolynomial.eval ![1, 0, 0]) h
  have h1 := congrArg (MvPolynomial.eval ![0, 1, 0]) h
  have h2 := congrArg (MvPolynomial.eval ![0, 0, 1]) h
  simp [linForm] at h0 h1 h2
  rw [h0, h1, h2]

/-- Distinct indices of the four challenges. -/
structure Distinct4 {n : Nat} (a d e f : Fin n) : Prop where
  ad : a ≠ d
  ae : a ≠ e
  af : a ≠ f
  de : d ≠ e
  df : d ≠ f
  ef : e ≠ f

theorem prodPoly_inj {n : Nat} {a d e f : Fin n} (hd : Distinct4 a d e f)
    {T T' : List (Fr × Fr × Fr)} (h : prodPoly a d e f T = prodPoly a d e f T') : T.Perm T' := by
  let v : Fin n → (MvPolynomial (Fin 3) Fr)[X] := fun i =>
    if i = a then X else if i = d then C (MvPolynomial.X 0) else if i = e then C (MvPolynomial.X 1)
    else if i = f then C (MvPolynomial.X 2) else 0
  have va : v a = X := if_pos rfl
  have vd : v d = C (MvPolynomial.X 0) := by
    show (if d = a then X else if d = d then _ else _) = _
    rw [if_neg hd.ad.symm, if_pos rfl]
  have ve : v e = C (MvPolynomial.X 1) := by
    show (if e = a then X else if e = d then _ else if e = e then _ else _) = _
    rw [if_neg hd.ae.symm, if_neg hd.de.symm, if_pos rfl]
  have vf : v f = C (MvPolynomial.X 2) := by
    show (if f = a then X else if f = d then _ else if f = e then _ else if f = f then _ else _) = _
    rw [if_neg hd.af.symm, if_neg hd.df.symm, if_neg hd.ef.symm, if_pos rfl]
  have key : ∀ T, MvPolynomial.aeval v (prodPoly a d e f T) =
      (Multiset.map (fun q => X - C q) (Multiset.map linForm (T : Multiset (Fr × Fr × Fr)))).prod := by
    intro T
    unfold prodPoly
    rw [map_list_prod, List.map_map, Multiset.map_map, Multiset.map_coe, Multiset.prod_coe]
    congr 1
    apply List.map_congr_left
    intro t _
    simp only [Function.comp_apply, map_sub, map_mul, MvPolynomial.aeval_X, va, vd, ve, vf, linForm,
      map_add]
    have hc : ∀ c : Fr, MvPolynomial.aeval v (MvPolynomial.C c : MvPolynomial (Fin n) Fr) =
        C (MvPolynomial.C c : MvPolynomial (Fin 3) Fr) := by
      intro c
      rw [MvPolynomial.aeval_C]
      rfl
    rw [hc, hc, hc]
    ring
  have hroots := congrArg (fun p => (MvPolynomial.aeval v p).roots) h
  simp only [key, roots_multiset_prod_X_sub_C] at hroots
  have := Multiset.map_injective linForm_inj hroots
  exact Multiset.coe_eq_coe.1 this

theorem product_perm {T T' : List (Fr × Fr × Fr)} (h : T.Perm T') (alpha d e f : Fr) :
    tableProduct alpha d e f T = tableProduct alpha d e f T' :=
  (h.map _).prod_eq

/-- Tables that are not rearrangements have equal products for few challenges only. -/
theorem product_bad {n : Nat} {a d e f : Fin n} (hd : Distinct4 a d e f)
    {T T' : List (Fr × Fr × Fr)} {m : Nat} (h1 : T.length ≤ m) (h2 : T'.length ≤ m)
    (h : ¬ T.Perm T') :
    {x : Fin n → Fr | tableProduct (x a) (x d) (x e) (x f) T =
      tableProduct (x a) (x d) (x e) (x f) T'}.ncard * P ≤ m * P ^ n := by
  have hne : prodPoly a d e f T - prodPoly a d e f T' ≠ 0 := by
    intro hz
    exact h (prodPoly_inj hd (sub_eq_zero.1 hz))
  have hdeg : (prodPoly a d e f T - prodPoly a d e f T').totalDegree ≤ m :=
    le_trans (MvPolynomial.totalDegree_sub _ _)
      (max_le (le_trans (prodPoly_degree _ _ _ _ _) h1) (le_trans (prodPoly_degree _ _ _ _ _) h2))
  have := zeros_bound hne hdeg
  have e : {x : Fin n → Fr | MvPolynomial.eval x (prodPoly a d e f T - prodPoly a d e f T') = 0} =
      {x : Fin n → Fr | tableProduct (x a) (x d) (x e) (x f) T =
      tableProduct (x a) (x d) (x e) (x f) T'} := by
    ext x
    rw [Set.mem_ofPred_eq, Set.mem_ofPred_eq, map_sub, prodPoly_eval, prodPoly_eval, sub_eq_zero]
  rwa [e] at this

/-- For fixed `d`, `e`, `f`, few `alpha` are bad unless the compressed tables agree. -/
theorem product_bad_alpha {T T' : List (Fr × Fr × Fr)} {m : Nat} (h1 : T.length ≤ m)
    (h2 : T'.length ≤ m) (d e f : Fr)
    (h : ¬ (T.map fun t => d * t.1 + e * t.2.1 + f * t.2.2).Perm
      (T'.map fun t => d * t.1 + e * t.2.1 + f * t.2.2)) :
    {alpha : Fr | tableProduct alpha d e f T = tableProduct alpha d e f T'}.ncard ≤ m := by
  classical
  let q : List (Fr × Fr × Fr) → Fr[X] := fun T =>
    (Multiset.map (fun c => X - C c)
      ((T.map fun t => d * t.1 + e * t.2.1 + f * t.2.2 : List Fr) : Multiset Fr)).prod
  have hq : ∀ T alpha, (q T).eval alpha = tableProduct alpha d e f T := by
    intro T alpha
    show eval alpha (Multiset.map _ _).prod = _
    rw [Multiset.map_coe, Multiset.prod_coe, List.map_map, eval_list_prod, List.map_map]
    unfold tableProduct
    congr 1
    apply List.map_congr_left
    intro t _
    simp only [Function.comp_apply, eval_sub, eval_X, eval_C, rowFactor]
    ring
  have hdeg : ∀ T, (q T).natDegree ≤ T.length := by
    intro T
    rw [show (q T).natDegree = _ from natDegree_multiset_prod_X_sub_C_eq_card _, Multiset.coe_card, List.length_map]
  have hne : q T - q T' ≠ 0 := by
    intro hz
    have := congrArg roots (sub_eq_zero.1 hz)
    have e1 : (q T).roots = _ := roots_multiset_prod_X_sub_C _
    have e2 : (q T').roots = _ := roots_multiset_prod_X_sub_C _
    rw [e1, e2] at this
    exact h (Multiset.coe_eq_coe.1 this)
  have hsub : {alpha : Fr | tableProduct alpha d e f T = tableProduct alpha d e f T'} ⊆
      ((q T - q T').roots.toFinset : Set Fr) := by
    intro alpha ha
    rw [Finset.mem_coe, Multiset.mem_toFinset, mem_roots hne, IsRoot.def, eval_sub, hq, hq,
      sub_eq_zero]
    exact ha
  refine le_trans (Set.ncard_le_ncard hsub (Finset.finite_toSet _)) ?_
  rw [Set.ncard_coe_finset]
  refine le_trans (Multiset.toFinset_card_le _) (le_trans (card_roots' _) ?_)
  refine le_trans (natDegree_sub_le _ _) (max_le ?_ ?_)
  · exact le_trans (hdeg T) h1
  · exact le_trans (hdeg T') h2

/-- If few challenges out of all, not all. -/
theorem exists_good {n m : Nat} {S : Set (Fin n → Fr)} (h : S.ncard * P ≤ m * P ^ n) (hm : m < P) :
    ∃ x, x ∉ S := by
  by_contra hall
  push Not at hall
  have hu : S = Set.univ := Set.eq_univ_of_forall hall
  have hP : 0 < P := (Fact.out : P.Prime).pos
  rw [hu, Set.ncard_univ, Nat.card_fun, card_Fr, Nat.card_eq_fintype_card, Fintype.card_fin,
    mul_comm] at h
  have := Nat.le_of_mul_le_mul_right h (Nat.pow_pos hP)
  omega

/-! ### Sums -/

/-- The running sum as a polynomial. -/
noncomputable def sumPoly (l : List Fr) : Fr[X] := l.foldl (fun acc v => acc * X + C v) 0

theorem sumPoly_snoc (l : List Fr) (v : Fr) : sumPoly (l ++ [v]) = sumPoly l * X + C v := by
  unfold sumPoly; rw [List.foldl_append]; rfl

theorem runningSum_snoc (gamma : Fr) (l : List Fr) (v : Fr) :
    runningSum gamma (l ++ [v]) = runningSum gamma l * gamma + v := by
  unfold runningSum; rw [List.foldl_append]; rfl

theorem sumPoly_eval (gamma : Fr) (l : List Fr) : (sumPoly l).eval gamma = runningSum gamma l := by
  induction l using List.reverseRecOn with
  | nil => simp [sumPoly, runningSum]
  | append_singleton l v ih =>
    rw [sumPoly_snoc, runningSum_snoc, ← ih]; simp

theorem sumPoly_coeff (l : List Fr) (i : Nat) : (sumPoly l).coeff i = l.reverse[i]?.getD 0 := by
  induction l using List.reverseRecOn generalizing i with
  | nil => simp [sumPoly]
  | append_singleton l v ih =>
    rw [sumPoly_snoc, List.reverse_append, List.reverse_singleton, List.singleton_append]
    cases i with
    | zero => simp
    | succ i => rw [List.getElem?_cons_succ, ← ih]; simp

theorem sumPoly_degree (l : List Fr) : (sumPoly l).natDegree ≤ l.length - 1 := by
  rw [natDegree_le_iff_coeff_eq_zero]
  intro i hi
  rw [sumPoly_coeff, List.getElem?_eq_none (by rw [List.length_reverse]; omega)]
  rfl

theorem replicate_cons_snoc (k : Nat) : List.replicate (k + 1) (0 : Fr) = 0 :: List.replicate k 0 := rfl

theorem runningSum_zeros (gamma : Fr) (k : Nat) (l : List Fr) :
    runningSum gamma (List.replicate k 0 ++ l) = runningSum gamma l := by
  unfold runningSum
  rw [List.foldl_append]
  congr 1
  induction k with
  | zero => rfl
  | succ k ih => rw [replicate_cons_snoc, List.foldl_cons]; simpa using ih

/-- Coefficients determine the list up to leading zeros. -/
theorem sumPoly_inj {l l' : List Fr} (h : sumPoly l = sumPoly l') (hl : l'.length ≤ l.length) :
    l = List.replicate (l.length - l'.length) 0 ++ l' := by
  have hr : l.reverse = l'.reverse ++ List.replicate (l.length - l'.length) 0 := by
    apply List.ext_getElem?
    intro i
    have hc := congrArg (fun p => coeff p i) h
    simp only [sumPoly_coeff] at hc
    by_cases h1 : i < l.length
    · rw [List.getElem?_eq_getElem (by simpa using h1)] at hc ⊢
      by_cases h2 : i < l'.length
      · rw [List.getElem?_append_left (by simpa using h2)]
        rw [List.getElem?_eq_getElem (by simpa using h2)] at hc ⊢
        simpa using hc
      · rw [List.getElem?_append_right (by rw [List.length_reverse]; omega),
          List.getElem?_replicate, if_pos (by rw [List.length_reverse]; omega)]
        rw [List.getElem?_eq_none (l := l'.reverse) (by rw [List.length_reverse]; omega)] at hc
        simpa using hc
    · rw [List.getElem?_eq_none (by rw [List.length_reverse]; omega), List.getElem?_eq_none]
      simp; omega
  have := congrArg List.reverse hr
  simpa using this

theorem sumPoly_same {l l' : List Fr} (h : sumPoly l = sumPoly l') : SameUpToLeadingZeros l l' := by
  rcases le_total l'.length l.length with hl | hl
  · exact ⟨_, Or.inl (sumPoly_inj h hl)⟩
  · exact ⟨_, Or.inr (sumPoly_inj h.symm hl)⟩

theorem runningSum_same {l l' : List Fr} (h : SameUpToLeadingZeros l l') (gamma : Fr) :
    runningSum gamma l = runningSum gamma l' := by
  obtain ⟨k, rfl | rfl⟩ := h
  · exact runningSum_zeros _ _ _
  · exact (runningSum_zeros _ _ _).symm

/-- Columns that are not the same up to leading zeros agree for few challenges only. -/
theorem sum_bad {l l' : List Fr} {m : Nat} (h1 : l.length ≤ m) (h2 : l'.length ≤ m)
    (h : ¬ SameUpToLeadingZeros l l') :
    {gamma : Fr | runningSum gamma l = runningSum gamma l'}.ncard ≤ m - 1 := by
  classical
  have hne : sumPoly l - sumPoly l' ≠ 0 := fun hz => h (sumPoly_same (sub_eq_zero.1 hz))
  have hsub : {gamma : Fr | runningSum gamma l = runningSum gamma l'} ⊆
      ((sumPoly l - sumPoly l').roots.toFinset : Set Fr) := by
    intro gamma ha
    rw [Finset.mem_coe, Multiset.mem_toFinset, mem_roots hne, IsRoot.def, eval_sub, sumPoly_eval,
      sumPoly_eval, sub_eq_zero]
    exact ha
  refine le_trans (Set.ncard_le_ncard hsub (Finset.finite_toSet _)) ?_
  rw [Set.ncard_coe_finset]
  refine le_trans (Multiset.toFinset_card_le _) (le_trans (card_roots' _) ?_)
  refine le_trans (natDegree_sub_le _ _) (max_le ?_ ?_)
  · exact le_trans (sumPoly_degree l) (by omega)
  · exact le_trans (sumPoly_degree l') (by omega)

/-- The running sum as a polynomial in all the challenges. -/
noncomputable def sumPolyM {n : Nat} (g : Fin n) (l : List Fr) : MvPolynomial (Fin n) Fr :=
  l.foldl (fun acc v => acc * MvPolynomial.X g + MvPolynomial.C v) 0

theorem sumPolyM_snoc {n : Nat} (g : Fin n) (l : List Fr) (v : Fr) :
    sumPolyM g (l ++ [v]) = sumPolyM g l * MvPolynomial.X g + MvPolynomial.C v := by
  unfold sumPolyM; rw [List.foldl_append]; rfl

theorem sumPolyM_eval {n : Nat} (g : Fin n) (l : List Fr) (x : Fin n → Fr) :
    MvPolynomial.eval x (sumPolyM g l) = runningSum (x g) l := by
  induction l using List.reverseRecOn with
  | nil => simp [sumPolyM, runningSum]
  | append_singleton l v ih => rw [sumPolyM_snoc, runningSum_snoc, ← ih]; simp

theorem sumPolyM_degree {n : Nat} (g : Fin n) (l : List Fr) :
    (sumPolyM g l).totalDegree ≤ l.length := by
  induction l using List.reverseRecOn with
  | nil => simp [sumPolyM]
  | append_singleton l v ih =>
    rw [sumPolyM_snoc, List.length_append, List.length_singleton]
    refine le_trans (MvPolynomial.totalDegree_add _ _) (max_le ?_ (by simp))
    refine le_trans (MvPolynomial.totalDegree_mul _ _) ?_
    rw [MvPolynomial.totalDegree_X]; omega

theorem sumPolyM_univ {n : Nat} (g : Fin n) (l : List Fr) :
    MvPolynomial.aeval (fun _ => (X : Fr[X])) (sumPolyM g l) = sumPoly l := by
  induction l using List.reverseRecOn with
  | nil => simp [sumPolyM, sumPoly]
  | append_singleton l v ih =>
    rw [sumPolyM_snoc, sumPoly_snoc, map_add, map_mul, ih, MvPolynomial.aeval_X, MvPolynomial.aeval_C]
    rfl

theorem sum_badM {n : Nat} (g : Fin n) {l l' : List Fr} {m : Nat} (h1 : l.length ≤ m)
    (h2 : l'.length ≤ m) (h : ¬ SameUpToLeadingZeros l l') :
    {x : Fin n → Fr | runningSum (x g) l = runningSum (x g) l'}.ncard * P ≤ m * P ^ n := by
  have hne : sumPolyM g l - sumPolyM g l' ≠ 0 := by
    intro hz
    have := congrArg (MvPolynomial.aeval (fun _ => (X : Fr[X]))) (sub_eq_zero.1 hz)
    rw [sumPolyM_univ, sumPolyM_univ] at this
    exact h (sumPoly_same this)
  have hdeg : (sumPolyM g l - sumPolyM g l').totalDegree ≤ m :=
    le_trans (MvPolynomial.totalDegree_sub _ _)
      (max_le (le_trans (sumPolyM_degree _ _) h1) (le_trans (sumPolyM_degree _ _) h2))
  have := zeros_bound hne hdeg
  have e : {x : Fin n → Fr | MvPolynomial.eval x (sumPolyM g l - sumPolyM g l') = 0} =
      {x : Fin n → Fr | runningSum (x g) l = runningSum (x g) l'} := by
    ext x
    rw [Set.mem_ofPred_eq, Set.mem_ofPred_eq, map_sub, sumPolyM_eval, sumPolyM_eval, sub_eq_zero]
  rwa [e] at this

end Verif
