import Verif.Lemmas.PiopPoly

/-! The verifier's formulas over the committed polynomials. -/

namespace Verif.Plonk

open Finset Polynomial Spec

/-- The `i`-th polynomial of a list. -/
noncomputable def pick (l : List Poly) (i : Nat) : Fr[X] := toPoly (l.getD i [])

/-- All values the verifier's expressions are made of, as polynomials in the challenge `x`. -/
noncomputable def polyOpened (L : Int → Fr[X]) (key : Key Poly) (instances : List (List Fr))
    (com : Commitments Poly) (user : List Fr) (theta beta gamma : Fr) : Opened Fr[X] where
  advice c r := scale (key.domain.omega ^ r) (pick com.advice c)
  fixed c r := scale (key.domain.omega ^ r) (pick key.fixed c)
  inst c r := ∑ i ∈ range (instances.getD c []).length,
    C ((instances.getD c []).getD i 0) * L ((i : Int) - r)
  user i := C (user.getD i 0)
  sigma i := pick key.sigma i
  z t := pick com.products t
  zNext t := scale key.domain.omega (pick com.products t)
  zLast t := scale (key.domain.omega ^ (-((key.cs.blindingFactors + 1 : Nat) : Int))) (pick com.products t)
  lz t := pick com.lookupProducts t
  lzNext t := scale key.domain.omega (pick com.lookupProducts t)
  la t := toPoly (com.permuted.getD t ([], [])).1
  laInv t := scale (key.domain.omega ^ (-1 : Int)) (toPoly (com.permuted.getD t ([], [])).1)
  ls t := toPoly (com.permuted.getD t ([], [])).2
  l0 := L 0
  lLast := L (-((key.cs.blindingFactors + 1 : Nat) : Int))
  lBlind := ∑ i ∈ range key.cs.blindingFactors, L (-((key.cs.blindingFactors + 1 : Nat) : Int) + ((i + 1 : Nat) : Int))
  theta := C theta
  beta := C beta
  gamma := C gamma
  x := X

/-- The lengths used for the degree bound. -/
structure ComBounded (N : Nat) (key : Key Poly) (com : Commitments Poly) : Prop where
  fixed : ∀ p ∈ key.fixed, p.length ≤ N
  sigma : ∀ p ∈ key.sigma, p.length ≤ N
  advice : ∀ p ∈ com.advice, p.length ≤ N
  permuted : ∀ p ∈ com.permuted, p.1.length ≤ N ∧ p.2.length ≤ N
  products : ∀ p ∈ com.products, p.length ≤ N
  lookupProducts : ∀ p ∈ com.lookupProducts, p.length ≤ N
  pieces : ∀ p ∈ com.pieces, p.length ≤ N

theorem getD_mem_or {α : Type} (l : List α) (i : Nat) (x : α) : l.getD i x ∈ l ∨ l.getD i x = x := by
  rcases Nat.lt_or_ge i l.length with h | h
  · left
    rw [List.getD_eq_getElem?_getD, List.getElem?_eq_getElem h]
    exact List.getElem_mem h
  · right
    rw [List.getD_eq_getElem?_getD, List.getElem?_eq_none h]
    rfl

theorem pick_degree {l : List Poly} {D : Nat} (h : ∀ p ∈ l, p.length ≤ D + 1) (i : Nat) :
    (pick l i).natDegree ≤ D := by
  apply toPoly_degree
  rcases getD_mem_or l i [] with h1 | h1
  · exact h _ h1
  · rw [h1]; simp

variable {L : Int → Fr[X]} {key : Key Poly} {j k : Nat} {instances : List (List Fr)}
  {com : Commitments Poly} {user : List Fr} {theta beta gamma : Fr}

theorem polyOpened_small {D : Nat} (hD : 1 ≤ D) (hn : 2 ^ k ≤ D + 1)
    (hL : ∀ s, (L s).natDegree ≤ 2 ^ k - 1) (hb : ComBounded (D + 1) key com) :
    Small D (polyOpened L key instances com user theta beta gamma) := by
  have hL' : ∀ s, (L s).natDegree ≤ D := fun s => le_trans (hL s) (by omega)
  have hp : ∀ t, (com.permuted.getD t ([], [])).1.length ≤ D + 1 ∧
      (com.permuted.getD t ([], [])).2.length ≤ D + 1 := by
    intro t
    rcases getD_mem_or com.permuted t ([], []) with h1 | h1
    · exact hb.permuted _ h1
    · rw [h1]; simp
  constructor
  · exact hD
  · intro c r; exact scale_degree _ _ (pick_degree hb.advice c)
  · intro c r; exact scale_degree _ _ (pick_degree hb.fixed c)
  · intro c r
    refine natDegree_sum_le_of_forall_le (range (instances.getD c []).length)
      (fun i => C ((instances.getD c []).getD i 0) * L ((i : Int) - r)) ?_
    intro i _
    exact le_trans (natDegree_C_mul_le _ _) (hL' _)
  · intro i; exact natDegree_C _
  · intro i; exact pick_degree hb.sigma i
  · intro i; exact pick_degree hb.products i
  · intro i; exact scale_degree _ _ (pick_degree hb.products i)
  · intro i; exact scale_degree _ _ (pick_degree hb.products i)
  · intro i; exact pick_degree hb.lookupProducts i
  · intro i; exact scale_degree _ _ (pick_degree hb.lookupProducts i)
  · intro i; exact toPoly_degree _ (hp i).1
  · intro i; exact scale_degree _ _ (toPoly_degree _ (hp i).1)
  · intro i; exact toPoly_degree _ (hp i).2
  · exact hL' _
  · exact hL' _
  · refine natDegree_sum_le_of_forall_le (range key.cs.blindingFactors)
      (fun i => L (-((key.cs.blindingFactors + 1 : Nat) : Int) + ((i + 1 : Nat) : Int))) ?_
    intro i _
    exact hL' _
  · exact natDegree_C _
  · exact natDegree_C _
  · exact natDegree_C _
  · exact natDegree_X_le

/-- The formulas in a row. -/
noncomputable def rowOf (L : Int → Fr[X]) (key : Key Poly) (instances : List (List Fr))
    (com : Commitments Poly) (user : List Fr) (theta beta gamma : Fr) (r : Nat) : Opened Fr :=
  (polyOpened L key instances com user theta beta gamma).map (aeval (R := Fr) (key.domain.omega ^ r))

theorem pick_eval (l : List Poly) (i : Nat) (x : Fr) : (pick l i).eval x = polyAt (l.getD i []) x :=
  toPoly_eval _ _

theorem rotate_neg {n b i : Nat} (hb : b < n) (hi : i ≤ b) :
    rotate n 0 (-((b + 1 : Nat) : Int) + ((i + 1 : Nat) : Int)) = if i = b then 0 else n - b + i := by
  unfold rotate
  split
  · next h => subst h; simp
  · next h =>
    have hpos : (0 : Int) < n := by omega
    have : ((0 : Nat) : Int) + (-((b + 1 : Nat) : Int) + ((i + 1 : Nat) : Int))
        = ((n - b + i : Nat) : Int) + n * (-1) := by omega
    rw [this, Int.add_mul_emod_self_left, Int.emod_eq_of_lt (by omega) (by omega)]
    omega

theorem rowOf_family (hd : IsDomain key.domain j k)
    (hL : ∀ s, ∀ i < 2 ^ k, (L s).eval (key.domain.omega ^ i) = if rotate (2 ^ k) 0 s = i then 1 else 0)
    (hbf : key.cs.blindingFactors + 1 < 2 ^ k) :
    RowFamily (2 ^ k) (key.cs.usableRows (2 ^ k))
      (rowOf L key instances com user theta beta gamma) := by
  have hu : key.cs.usableRows (2 ^ k) = 2 ^ k - (key.cs.blindingFactors + 1) := rfl
  have hrl : rotate (2 ^ k) 0 (-((key.cs.blindingFactors + 1 : Nat) : Int)) = key.cs.usableRows (2 ^ k) := by
    rw [hu]
    unfold rotate
    have : ((0 : Nat) : Int) + -((key.cs.blindingFactors + 1 : Nat) : Int)
        = ((2 ^ k - (key.cs.blindingFactors + 1) : Nat) : Int) + ((2 ^ k : Nat) : Int) * (-1) := by omega
    rw [this, Int.add_mul_emod_self_left, Int.emod_eq_of_lt (by omega) (by omega)]
    omega
  refine ⟨by omega, by omega, ?_, ?_, ?_, ?_, ?_, ?_, ?_⟩
  · intro r hr
    show aeval _ (L 0) = _
    rw [coe_aeval_eq_eval, hL 0 r hr]
    have : rotate (2 ^ k) 0 0 = 0 := by simp [rotate]
    rw [this]
    simp only [eq_comm]
  · intro r hr
    show aeval _ (L _) = _
    rw [coe_aeval_eq_eval, hL _ r hr, hrl]
    simp only [eq_comm]
  · intro r hr
    show aeval _ (∑ i ∈ range _, L _) = _
    rw [coe_aeval_eq_eval, eval_finsetSum]
    have h1 : ∀ i ∈ range key.cs.blindingFactors,
        (L (-((key.cs.blindingFactors + 1 : Nat) : Int) + ((i + 1 : Nat) : Int))).eval
          (key.domain.omega ^ r) = if 2 ^ k - key.cs.blindingFactors + i = r then 1 else 0 := by
      intro i hi
      rw [mem_range] at hi
      rw [hL _ r hr, rotate_neg (by omega) (by omega), if_neg (show ¬ i = key.cs.blindingFactors by omega)]
    rw [sum_congr rfl h1, hu]
    split
    · next hlt =>
      rw [sum_eq_single (r - (2 ^ k - key.cs.blindingFactors))]
      · rw [if_pos (by omega)]
      · intro i _ hne
        rw [if_neg (by omega)]
      · intro hn
        rw [mem_range] at hn
        omega
    · next hlt =>
      apply sum_eq_zero
      intro i hi
      rw [if_neg (by omega)]
  · intro t r hr
    show aeval _ (scale _ _) = aeval _ (pick _ _)
    rw [coe_aeval_eq_eval, coe_aeval_eq_eval, scale_eval, pow_succ']
  · intro t
    show aeval _ (scale _ _) = aeval _ (pick _ _)
    rw [coe_aeval_eq_eval, coe_aeval_eq_eval, scale_eval, pow_zpow hd, hrl]
  · intro t r hr
    show aeval _ (scale _ _) = aeval _ (pick _ _)
    rw [coe_aeval_eq_eval, coe_aeval_eq_eval, scale_eval, pow_succ']
  · intro t r hr
    show aeval _ (scale _ _) = aeval _ (toPoly _)
    rw [coe_aeval_eq_eval, coe_aeval_eq_eval, scale_eval, pow_zpow hd]
    congr 2
    unfold rotate
    have : ((r + 1 : Nat) : Int) + -1 = (r : Int) := by omega
    rw [this, Int.emod_eq_of_lt (by omega) (by omega)]
    omega

/-- The instance value in a row is the folded column. -/
theorem rowOf_inst (hL : ∀ s, ∀ i < 2 ^ k, (L s).eval (key.domain.omega ^ i) = if rotate (2 ^ k) 0 s = i then 1 else 0)
    (c : Nat) (s : Int) (r : Nat) (hr : r < 2 ^ k) :
    (rowOf L key instances com user theta beta gamma r).inst c s =
      foldedColumn (2 ^ k) (instances.getD c []) (rotate (2 ^ k) r s) := by
  show aeval _ (∑ i ∈ range _, C _ * L _) = _
  rw [coe_aeval_eq_eval, eval_finsetSum]
  unfold foldedColumn
  apply sum_congr rfl
  intro i _
  rw [eval_mul, eval_C, hL _ r hr]
  have hpos : (0 : Int) < ((2 ^ k : Nat) : Int) := by positivity
  have : rotate (2 ^ k) 0 ((i : Int) - s) = r ↔ i % 2 ^ k = rotate (2 ^ k) r s := by
    unfold rotate
    have e1 := Int.emod_nonneg (((0 : Nat) : Int) + ((i : Int) - s)) (ne_of_gt hpos)
    have e2 := Int.emod_nonneg ((r : Int) + s) (ne_of_gt hpos)
    have hi : ((i % 2 ^ k : Nat) : Int) = (i : Int) % ((2 ^ k : Nat) : Int) := by push_cast; rfl
    have hr' : (r : Int) = (r : Int) % ((2 ^ k : Nat) : Int) :=
      (Int.emod_eq_of_lt (by omega) (by omega)).symm
    constructor
    · intro h
      have h1 : (((0 : Nat) : Int) + ((i : Int) - s)) % ((2 ^ k : Nat) : Int) = (r : Int) % ((2 ^ k : Nat) : Int) := by
        rw [← hr']; omega
      have h2 : ((r : Int) + s) % ((2 ^ k : Nat) : Int) = (i : Int) % ((2 ^ k : Nat) : Int) := by
        have := Int.ModEq.add_right s (show (((0 : Nat) : Int) + ((i : Int) - s)) ≡ (r : Int) [ZMOD ((2 ^ k : Nat) : Int)] from h1)
        have h3 : ((0 : Nat) : Int) + ((i : Int) - s) + s = (i : Int) := by omega
        rw [h3] at this
        exact this.symm
      omega
    · intro h
      have h1 : (i : Int) ≡ (r : Int) + s [ZMOD ((2 ^ k : Nat) : Int)] := by
        show (i : Int) % _ = _
        omega
      have := Int.ModEq.sub_right s h1
      rw [add_sub_cancel_right] at this
      have h2 : (((0 : Nat) : Int) + ((i : Int) - s)) % ((2 ^ k : Nat) : Int) = r := by
        rw [hr', show ((0 : Nat) : Int) + ((i : Int) - s) = (i : Int) - s by omega]
        exact this
      omega
  by_cases h : i % 2 ^ k = rotate (2 ^ k) r s
  · rw [if_pos h, if_pos (this.2 h), mul_one]
  · rw [if_neg h, if_neg (fun h' => h (this.1 h')), mul_zero]

/-- The value of an expression in a row. -/
theorem rowOf_expr (hd : IsDomain key.domain j k)
    (hL : ∀ s, ∀ i < 2 ^ k, (L s).eval (key.domain.omega ^ i) = if rotate (2 ^ k) 0 s = i then 1 else 0)
    (r : Nat) (hr : r < 2 ^ k) (e : Expr) (hq : Queried key.cs e) :
    (rowOf L key instances com user theta beta gamma r).expr e =
      e.eval (2 ^ k) (gridOf key.domain (2 ^ k) instances key.fixed com.advice user) r := by
  induction e with
  | const c => rfl
  | selector s => exact hq.elim
  | fixed c s =>
    show aeval _ (scale _ _) = polyAt _ _
    rw [coe_aeval_eq_eval, scale_eval, pow_zpow hd, pick_eval]
  | advice c s =>
    show aeval _ (scale _ _) = polyAt _ _
    rw [coe_aeval_eq_eval, scale_eval, pow_zpow hd, pick_eval]
  | instance_ c s => exact rowOf_inst hL c s r hr
  | challenge i =>
    show aeval _ (C _) = user.getD i 0
    rw [coe_aeval_eq_eval, eval_C]
  | neg a ih => show - _ = - _; rw [ih hq]
  | sum a b iha ihb => show _ + _ = _ + _; rw [iha hq.1, ihb hq.2]
  | product a b iha ihb => show _ * _ = _ * _; rw [iha hq.1, ihb hq.2]
  | scaled a f ih => show _ * _ = _ * _; rw [ih hq]; rfl

/-- The value of a column in a row. -/
theorem rowOf_col (hd : IsDomain key.domain j k)
    (hL : ∀ s, ∀ i < 2 ^ k, (L s).eval (key.domain.omega ^ i) = if rotate (2 ^ k) 0 s = i then 1 else 0)
    (r : Nat) (hr : r < 2 ^ k) (c : Col) :
    (rowOf L key instances com user theta beta gamma r).col c =
      (gridOf key.domain (2 ^ k) instances key.fixed com.advice user).cell (c, r) := by
  have hrot : rotate (2 ^ k) r 0 = r := by
    unfold rotate
    rw [add_zero, Int.emod_eq_of_lt (by omega) (by exact_mod_cast hr)]
    omega
  cases c with
  | advice c =>
    show aeval _ (scale _ _) = polyAt _ _
    rw [coe_aeval_eq_eval, scale_eval, pow_zpow hd, pick_eval, hrot]
  | fixed c =>
    show aeval _ (scale _ _) = polyAt _ _
    rw [coe_aeval_eq_eval, scale_eval, pow_zpow hd, pick_eval, hrot]
  | instance_ c =>
    show (rowOf L key instances com user theta beta gamma r).inst c 0 = _
    rw [rowOf_inst hL c 0 r hr, hrot]
    rfl

end Verif.Plonk
