import Verif.Lemmas.EccFixedKeys
import Mathlib.LinearAlgebra.Lagrange

/-! Checking the table of a fixed point. -/

namespace Verif.Lemmas.Ecc

open Verif.Gadget Verif.Spec.Gadget Verif.Spec Verif.Spec.Ecc Verif.Spec.EccFixed Verif.Lemmas.Gadget

abbrev Pair := Fp × Fp

/-- `R` is the sum of `P` and `Q`, which have different first coordinates. -/
def addOk (P Q R : Pair) : Bool :=
  decide (P ≠ (0, 0)) && decide (Q ≠ (0, 0)) && decide (P.1 ≠ Q.1) &&
    decide ((R.1 + Q.1 + P.1) * (P.1 - Q.1) * (P.1 - Q.1) = (P.2 - Q.2) * (P.2 - Q.2)) &&
    decide ((R.2 + Q.2) * (P.1 - Q.1) = (P.2 - Q.2) * (Q.1 - R.1))

/-- `R` is twice `P`. -/
def dblOk (P R : Pair) : Bool :=
  decide (P ≠ (0, 0)) && decide ((R.1 + 2 * P.1) * (2 * P.2 * (2 * P.2)) = 3 * (P.1 * P.1) * (3 * (P.1 * P.1))) &&
    decide ((R.2 + P.2) * (2 * P.2) = 3 * (P.1 * P.1) * (P.1 - R.1))

def multiplesOk (P : Pair) : Pair → List Pair → Bool
  | _, [] => true
  | R, R' :: rest => addOk R P R' && multiplesOk P R' rest

/-- The multiples of `P` from the second on. -/
def rowOk (P : Pair) : List Pair → Bool
  | [] => false
  | R :: rest => dblOk P R && multiplesOk P R rest

/-- The multiples 2 to 9 of `P`, of 8 times `P`, and so on. -/
def chainOk : Pair → List (List Pair) → Bool
  | _, [] => true
  | P, row :: rows => row.length == 8 && rowOk P row && chainOk (row.getD 6 (0, 0)) rows

section

variable {A C : Pt (5 : Fp)}

theorem ne_of_coords {P : Pair} (hP : P = coords A) (h : P ≠ (0, 0)) : A ≠ 0 := by
  rintro rfl
  exact h hP

theorem addOk_sound {P Q R : Pair} (h : addOk P Q R = true) (hP : P = coords A) (hQ : Q = coords C) : R = coords (A + C) := by
  simp only [addOk, Bool.and_eq_true, decide_eq_true_eq] at h
  obtain ⟨⟨⟨⟨h1, h2⟩, h3⟩, h4⟩, h5⟩ := h
  have n1 := ne_of_coords hP h1
  have n2 := ne_of_coords hQ h2
  subst hP hQ
  exact incompleteEqs_sound (xr := R.1) (yr := R.2) n1 n2 h3 (by rw [h4]; ring) h5

theorem dblOk_sound {P R : Pair} (h : dblOk P R = true) (hP : P = coords A) : R = coords (2 • A) := by
  simp only [dblOk, Bool.and_eq_true, decide_eq_true_eq] at h
  obtain ⟨⟨h1, h2⟩, h3⟩ := h
  have n1 := ne_of_coords hP h1
  subst hP
  have hy := coords_y_ne usable_pallas n1
  have h2y : 2 * (coords A).2 ≠ 0 := mul_ne_zero smooth_five.two hy
  obtain ⟨l, hl⟩ : ∃ l, 2 * (coords A).2 * l = 3 * (coords A).1 ^ 2 :=
    ⟨3 * (coords A).1 ^ 2 / (2 * (coords A).2), mul_div_cancel₀ _ h2y⟩
  rw [two_nsmul, coords_double smooth_five n1 hy hl]
  have e1 : R.1 = l ^ 2 - (coords A).1 - (coords A).1 := by
    apply mul_right_cancel₀ h2y
    apply mul_right_cancel₀ h2y
    linear_combination h2 - (2 * (coords A).2 * l + 3 * (coords A).1 ^ 2) * hl
  have e2 : R.2 = l * ((coords A).1 - R.1) - (coords A).2 := by
    apply mul_right_cancel₀ h2y
    linear_combination h3 - ((coords A).1 - R.1) * hl
  rw [← e1, ← e2]

theorem multiplesOk_sound {P : Pair} (hP : P = coords A) : ∀ (row : List Pair) (R : Pair) (D : Pt (5 : Fp)), R = coords D →
    multiplesOk P R row = true → ∀ k < row.length, row.getD k (0, 0) = coords (D + (k + 1) • A)
  | [], _, _, _, _, k, hk => absurd hk (by simp)
  | R' :: row, R, D, hR, h, k, hk => by
    simp only [multiplesOk, Bool.and_eq_true] at h
    have h1 : R' = coords (D + A) := addOk_sound h.1 hR hP
    match k with
    | 0 => simpa using h1
    | k + 1 =>
      have := multiplesOk_sound hP row R' (D + A) h1 h.2 k (by simpa using hk)
      rw [List.getD_cons_succ, this, add_assoc, ← succ_nsmul']

theorem rowOk_sound {P : Pair} (hP : P = coords A) {row : List Pair} (h : rowOk P row = true) :
    ∀ k < row.length, row.getD k (0, 0) = coords ((k + 2) • A) := by
  match row, h with
  | R :: rest, h =>
    simp only [rowOk, Bool.and_eq_true] at h
    have h1 := dblOk_sound h.1 hP
    intro k hk
    match k with
    | 0 => exact h1
    | k + 1 =>
      have := multiplesOk_sound hP rest R (2 • A) h1 h.2 k (by simpa using hk)
      rw [List.getD_cons_succ, this, ← add_nsmul]
      congr 2
      omega

theorem chainOk_sound : ∀ (rows : List (List Pair)) (P : Pair) (A : Pt (5 : Fp)), P = coords A → chainOk P rows = true →
    ∀ w k, w < rows.length → k < 8 → (rows.getD w []).getD k (0, 0) = coords (((k + 2) * 8 ^ w) • A)
  | [], _, _, _, _, w, _, hw, _ => absurd hw (by simp)
  | row :: rows, P, A, hP, h, w, k, hw, hk => by
    simp only [chainOk, Bool.and_eq_true, beq_iff_eq] at h
    have h1 := rowOk_sound hP h.1.2
    match w with
    | 0 => simpa using h1 k (by omega)
    | w + 1 =>
      have h6 := h1 6 (by omega)
      have := chainOk_sound rows _ _ h6 h.2 w k (by simpa using hw) hk
      rw [List.getD_cons_succ, this, ← mul_nsmul]
      congr 2
      ring

/-- The point of the last place when its digit is 0. -/
theorem last_zero {B L : Pt (5 : Fp)} {m : Nat} (h : 7 • L + (2 * 8 ^ m) • B = 2 • B) :
    L = -((∑ j ∈ Finset.range m, 2 * 8 ^ j) • B) := by
  have hs : 7 * (∑ j ∈ Finset.range m, 2 * 8 ^ j) + 2 = 2 * 8 ^ m := by
    clear h
    induction m with
    | zero => simp
    | succ m ih => rw [Finset.sum_range_succ, pow_succ]; omega
  by_contra hne
  have hD : L + (∑ j ∈ Finset.range m, 2 * 8 ^ j) • B ≠ 0 := fun e => hne (eq_neg_of_add_eq_zero_left e)
  apply pallas_free hD (m := 7) (by norm_num) (by decide +kernel)
  rw [← hs, add_nsmul, mul_nsmul', ← add_assoc] at h
  rw [nsmul_add]
  exact add_eq_right.1 h

/-- What no square is. -/
theorem not_square {v s : Fp} (h : v = 5 * (s * s)) (hs : s ≠ 0) : ¬ IsSquare v := by
  rintro ⟨r, hr⟩
  apply usable_pallas.x (r / s)
  rw [div_pow, div_eq_iff (pow_ne_zero 2 hs)]
  linear_combination h - hr

/-- Interpolation of 8 values. -/
noncomputable def interpolation (xs : Nat → Fp) : Polynomial Fp :=
  Lagrange.interpolate (Finset.range 8) (fun i : Nat => (i : Fp)) xs

noncomputable def coefficients (xs : Nat → Fp) : List Fp := (List.range 8).map (interpolation xs).coeff

theorem coefficients_eval (xs : Nat → Fp) {k : Nat} (hk : k < 8) :
    ∑ j ∈ Finset.range 8, (coefficients xs).getD j 0 * (k : Fp) ^ j = xs k := by
  have hinj : Set.InjOn (fun i : Nat => (i : Fp)) (Finset.range 8 : Finset Nat) := by
    intro i hi j hj e
    have hi := Finset.mem_range.1 hi
    have hj := Finset.mem_range.1 hj
    have h8 : 8 < pallasBase := by decide +kernel
    have := congrArg ZMod.val e
    simpa [ZMod.val_natCast_of_lt (Nat.lt_trans hi h8), ZMod.val_natCast_of_lt (Nat.lt_trans hj h8)] using this
  have h1 : (interpolation xs).eval (k : Fp) = xs k := Lagrange.eval_interpolate_at_node xs hinj (Finset.mem_range.2 hk)
  have hdeg : (interpolation xs).degree < 8 := by
    have := Lagrange.degree_interpolate_lt (r := xs) hinj
    rw [Finset.card_range] at this
    exact_mod_cast this
  have h2 : (interpolation xs).natDegree < 8 := by
    by_cases h0 : interpolation xs = 0
    · rw [h0]; simp
    · exact (Polynomial.natDegree_lt_iff_degree_lt h0).2 hdeg
  rw [Polynomial.eval_eq_sum_range' h2] at h1
  rw [← h1]
  refine Finset.sum_congr rfl fun j hj => ?_
  have hj := Finset.mem_range.1 hj
  simp [coefficients, hj]

end

/-- One window: `z`, and for each digit the first coordinate, the root `u` and a number whose square times 5 is -y + z. -/
abbrev WindowRow := Nat × List (Nat × Nat × Nat)

def rowPoints (r : WindowRow) : List Pair := r.2.map fun e => ((e.1 : Fp), (e.2.1 : Fp) * (e.2.1 : Fp) - (r.1 : Fp))

def rootsOk (r : WindowRow) : Bool := r.2.length == 8 && r.2.all fun e =>
  decide (2 * (r.1 : Fp) - (e.2.1 : Fp) * (e.2.1 : Fp) = 5 * ((e.2.2 : Fp) * (e.2.2 : Fp))) && decide ((e.2.2 : Fp) ≠ 0)

/-- The points of the last window: `P` is the one of the place, `P2` twice that, `B2` twice the base, and `more` are the
multiples 2 to 7 of the first. -/
def lastOk (P P2 B2 : Pair) (pts more : List Pair) : Bool :=
  match pts with
  | [] => false
  | L :: rest => decide (L ≠ (0, 0)) && decide (L.2 * L.2 = L.1 * L.1 * L.1 + 5) && multiplesOk P L rest && rest.length == 7 &&
      more.length == 6 && rowOk L more && addOk (more.getD 5 (0, 0)) P2 B2

/-- The table made of rows. -/
noncomputable def tableBase (rows : List WindowRow) : FixedBase pallasBase where
  x := -1
  y := 2
  lagrange := rows.map fun r => coefficients fun k => ((rowPoints r).getD k (0, 0)).1
  z := rows.map Prod.fst
  u := rows.map fun r => r.2.map fun e => (e.2.1 : Fp)

theorem lastOk_sound {P P2 B2 : Pair} {pts more : List Pair} {B : Pt (5 : Fp)} {m : Nat} (h : lastOk P P2 B2 pts more = true)
    (hP : P = coords (8 ^ m • B)) (hP2 : P2 = coords ((2 * 8 ^ m) • B)) (hB2 : B2 = coords (2 • B)) :
    ∀ k < 8, pts.getD k (0, 0) = coords (windowPoint (m + 1) B m k) := by
  match pts, h with
  | L :: rest, h =>
    simp only [lastOk, Bool.and_eq_true, decide_eq_true_eq, beq_iff_eq] at h
    obtain ⟨⟨⟨⟨⟨⟨h0, h1⟩, h2⟩, h3⟩, h4⟩, h5⟩, h6⟩ := h
    obtain ⟨D, -, hD⟩ := exists_point smooth_five (x := L.1) (y := L.2) (by linear_combination h1)
    have hD : L = coords D := hD.symm
    have h7 := rowOk_sound hD h5 5 (by omega)
    have h8 := addOk_sound h6 h7 hP2
    have h9 : 7 • D + (2 * 8 ^ m) • B = 2 • B := coords_injective smooth_five (h8.symm.trans hB2)
    have hL := last_zero h9
    have hw : ∀ k, windowPoint (m + 1) B m k = D + k • (8 ^ m • B) := by
      intro k
      rw [windowPoint, if_neg (by omega), hL, mul_nsmul']
      abel
    intro k hk
    rw [hw]
    match k with
    | 0 => simpa using hD
    | k + 1 => exact multiplesOk_sound hP rest L D hD h2 k (by omega)

theorem rowPoints_getD {r : WindowRow} {k : Nat} (hk : k < r.2.length) :
    (rowPoints r).getD k (0, 0) = ((r.2[k].1 : Fp), (r.2[k].2.1 : Fp) * (r.2[k].2.1 : Fp) - (r.1 : Fp)) := by
  simp [rowPoints, hk]

/-- A table that has been checked. -/
theorem table_of {low : List WindowRow} {last : WindowRow} {more : List Pair} {m : Nat} (hm : low.length = m) (hm0 : 0 < m)
    (h1 : chainOk (-1, 2) (low.map rowPoints) = true) (h2 : (low ++ [last]).all rootsOk = true)
    {P P2 B2 : Pair} (hP : ((low.map rowPoints).getD (m - 1) []).getD 6 (0, 0) = P) (hB2 : ((low.map rowPoints).getD 0 []).getD 0 (0, 0) = B2)
    (hP2 : dblOk P P2 = true)
    (h3 : lastOk P P2 B2 (rowPoints last) more = true) :
    TableOf (m + 1) pallasGen (tableBase (low ++ [last])) := by
  have hlen : (low ++ [last]).length = m + 1 := by simp [hm]
  have hc := chainOk_sound (low.map rowPoints) (-1, 2) pallasGen rfl h1
  rw [List.length_map, hm] at hc
  have e1 : P = coords (8 ^ m • pallasGen) := by
    rw [← hP, hc (m - 1) 6 (by omega) (by norm_num)]
    congr 2
    obtain ⟨j, rfl⟩ : ∃ j, m = j + 1 := ⟨m - 1, by omega⟩
    rw [Nat.add_sub_cancel, pow_succ]
    omega
  have e2 : P2 = coords ((2 * 8 ^ m) • pallasGen) := by rw [mul_nsmul']; exact dblOk_sound hP2 e1
  have e3 : B2 = coords (2 • pallasGen) := by
    rw [← hB2, hc 0 0 hm0 (by norm_num)]
    simp
  have hl := lastOk_sound h3 e1 e2 e3
  have hpts : ∀ w (hw : w < (low ++ [last]).length) (k : Nat), k < 8 →
      (rowPoints ((low ++ [last])[w])).getD k (0, 0) = coords (windowPoint (m + 1) pallasGen w k) := by
    intro w hw k hk
    rw [hlen] at hw
    by_cases hwm : w < m
    · rw [List.getElem_append_left (by omega)]
      have := hc w k hwm hk
      rw [windowPoint, if_pos (by omega), ← this]
      simp [hm, hwm]
    · obtain rfl : w = m := by omega
      rw [List.getElem_append_right (by omega)]
      simpa using hl k hk
  rw [List.all_eq_true] at h2
  have hrow : ∀ w (hw : w < (low ++ [last]).length), ((low ++ [last])[w]).2.length = 8 ∧ ∀ k (hk : k < ((low ++ [last])[w]).2.length),
      2 * (((low ++ [last])[w]).1 : Fp) - (((low ++ [last])[w]).2[k].2.1 : Fp) * (((low ++ [last])[w]).2[k].2.1 : Fp) =
        5 * ((((low ++ [last])[w]).2[k].2.2 : Fp) * (((low ++ [last])[w]).2[k].2.2 : Fp)) ∧ (((low ++ [last])[w]).2[k].2.2 : Fp) ≠ 0 := by
    intro w hw
    have := h2 _ (List.getElem_mem hw)
    simp only [rootsOk, Bool.and_eq_true, beq_iff_eq, List.all_eq_true, decide_eq_true_eq] at this
    exact ⟨this.1, fun k hk => this.2 _ (List.getElem_mem hk)⟩
  have hz : ∀ w (hw : w < (low ++ [last]).length), (tableBase (low ++ [last])).z.getD w 0 = ((low ++ [last])[w]).1 := by
    intro w hw
    rw [tableBase, List.getD_eq_getElem?_getD, List.getElem?_map, List.getElem?_eq_getElem hw]
    rfl
  refine ⟨rfl, ⟨by simp [tableBase, hm], by simp [tableBase, hm], by simp [tableBase, hm]⟩, ?_, ?_, ?_⟩
  · intro w k hw hk
    rw [← hlen] at hw
    rw [← hpts w hw k hk]
    have : (tableBase (low ++ [last])).lagrange.getD w [] = coefficients fun k => ((rowPoints ((low ++ [last])[w])).getD k (0, 0)).1 := by
      rw [tableBase, List.getD_eq_getElem?_getD, List.getElem?_map, List.getElem?_eq_getElem hw]
      rfl
    rw [this, coefficients_eval _ hk]
  · intro w k hw hk
    rw [← hlen] at hw
    obtain ⟨r1, r2⟩ := hrow w hw
    obtain ⟨r3, r4⟩ := r2 k (by omega)
    rw [← hpts w hw k hk, hz w hw, rowPoints_getD (by omega)]
    exact not_square (by linear_combination r3) r4
  · intro w k hw hk
    rw [← hlen] at hw
    obtain ⟨r1, r2⟩ := hrow w hw
    have hk' : k < ((low ++ [last])[w]).2.length := by omega
    refine ⟨((((low ++ [last])[w]).2[k]).2.1 : Fp), ?_, ?_⟩
    · rw [tableBase]
      simp only [List.getElem?_map, List.getElem?_eq_getElem hw, Option.map_some, Option.bind_some, List.getElem?_eq_getElem hk']
    · rw [← hpts w hw k hk, hz w hw, rowPoints_getD (by omega)]
      ring

end Verif.Lemmas.Ecc
