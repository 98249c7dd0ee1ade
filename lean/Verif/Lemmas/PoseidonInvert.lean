import Verif.Model.Poseidon
import Verif.Spec.Poseidon
import Mathlib.LinearAlgebra.Matrix.Determinant.Basic
import Mathlib.LinearAlgebra.Matrix.Block
import Mathlib.LinearAlgebra.Matrix.NonsingularInverse
import Mathlib.Algebra.BigOperators.Fin
import Mathlib.Tactic.Ring
import Mathlib.Tactic.FieldSimp
import Mathlib.Tactic.LinearCombination

/-! Gauss-Jordan elimination without exchange of rows. -/

namespace Verif.Pos

open Matrix Spec.Poseidon

variable {F : Type} [Field F] {n : Nat}

theorem foldl_add (l : List (Fin n)) (f : Fin n → F) (a : F) :
    l.foldl (fun acc k => acc + f k) a = a + (l.map f).sum := by
  induction l generalizing a with
  | nil => simp
  | cons x l ih => rw [List.foldl_cons, ih, List.map_cons, List.sum_cons, add_assoc]

theorem foldl_sum (f : Fin n → F) :
    (List.finRange n).foldl (fun acc k => acc + f k) 0 = ∑ k, f k := by
  rw [foldl_add, zero_add, Fin.sum_univ_def]

theorem mulVector_eq (m : Mat F n) (v : Vec F n) : mulVector m v = (Matrix.of m) *ᵥ v := by
  funext i
  unfold mulVector
  rw [foldl_sum (fun k => v k * m i k)]
  simp [Matrix.mulVec, dotProduct, mul_comm]

theorem mul_eq (a b : Mat F n) : Matrix.of (mul a b) = Matrix.of a * Matrix.of b := by
  ext i j
  show mul a b i j = _
  unfold mul
  rw [foldl_sum (fun k => a i k * b k j), Matrix.mul_apply]
  rfl

theorem transpose_eq (a : Mat F n) : Matrix.of (transpose a) = (Matrix.of a)ᵀ := rfl

theorem identity_eq : Matrix.of (identity : Mat F n) = 1 := by
  ext i j
  show identity i j = _
  unfold identity
  rw [Matrix.one_apply]

variable [DecidableEq F]

/-- What the inner loop makes of the rows in `js`. -/
def clearedIn (js : List (Fin n)) (i : Fin n) (m : Mat F n × Mat F n) : Mat F n × Mat F n :=
  (fun a k => if a ∈ js ∧ a ≠ i then m.1 a k - m.1 a i * (m.1 i i)⁻¹ * m.1 i k else m.1 a k,
   fun a k => if a ∈ js ∧ a ≠ i then m.2 a k - m.1 a i * (m.1 i i)⁻¹ * m.2 i k else m.2 a k)

theorem clear_list (i : Fin n) (js : List (Fin n)) (hnd : js.Nodup) (m : Mat F n × Mat F n) :
    js.foldlM (clear i) m =
      if (∃ j ∈ js, j ≠ i) → m.1 i i ≠ 0 then some (clearedIn js i m) else none := by
  induction js generalizing m with
  | nil =>
    simp [clearedIn]
  | cons j js ih =>
    rw [List.nodup_cons] at hnd
    rw [List.foldlM_cons]
    unfold clear
    by_cases hij : i = j
    · subst hij
      rw [if_neg (by simp)]
      show js.foldlM (clear i) m = _
      rw [ih hnd.2]
      have e : (∃ j ∈ i :: js, j ≠ i) ↔ ∃ j ∈ js, j ≠ i := by
        constructor
        · rintro ⟨a, ha, hne⟩
          rcases List.mem_cons.1 ha with rfl | ha
          · exact absurd rfl hne
          · exact ⟨a, ha, hne⟩
        · rintro ⟨a, ha, hne⟩
          exact ⟨a, List.mem_cons_of_mem _ ha, hne⟩
      have e2 : clearedIn (i :: js) i m = clearedIn js i m := by
        unfold clearedIn
        have : ∀ a, (a ∈ i :: js ∧ a ≠ i) ↔ (a ∈ js ∧ a ≠ i) := by
          intro a
          rw [List.mem_cons]
          constructor
          · rintro ⟨h | h, hne⟩
            · exact absurd h hne
            · exact ⟨h, hne⟩
          · rintro ⟨h, hne⟩
            exact ⟨Or.inr h, hne⟩
        simp only [this]
      rw [e2]
      simp only [e]
    · rw [if_pos hij]
      by_cases hp : m.1 i i = 0
      · rw [if_pos hp]
        have hex : ∃ a ∈ j :: js, a ≠ i := ⟨j, by simp, fun h => hij h.symm⟩
        rw [if_neg (fun h => h hex hp)]
        rfl
      · rw [if_neg hp]
        show js.foldlM (clear i) _ = _
        rw [ih hnd.2]
        have h1 : (if i = j then m.1 j i - m.1 j i * (m.1 i i)⁻¹ * m.1 i i else m.1 i i) = m.1 i i :=
          if_neg hij
        rw [if_pos (fun _ => ne_of_eq_of_ne h1 hp), if_pos (fun _ => hp)]
        congr 1
        unfold clearedIn
        have hi : ∀ k, (if i = j then m.1 j k - m.1 j i * (m.1 i i)⁻¹ * m.1 i k else m.1 i k) = m.1 i k :=
          fun k => if_neg hij
        have hi2 : ∀ k, (if i = j then m.2 j k - m.1 j i * (m.1 i i)⁻¹ * m.2 i k else m.2 i k) = m.2 i k :=
          fun k => if_neg hij
        simp only [hi, hi2]
        have hmem : ∀ a, a ≠ j → ((a ∈ j :: js ∧ a ≠ i) ↔ (a ∈ js ∧ a ≠ i)) := by
          intro a ha
          rw [List.mem_cons]
          constructor
          · rintro ⟨h | h, hne⟩
            · exact absurd h ha
            · exact ⟨h, hne⟩
          · rintro ⟨h, hne⟩
            exact ⟨Or.inr h, hne⟩
        refine Prod.ext ?_ ?_
        · funext a k
          by_cases ha : a = j
          · subst ha
            dsimp only
            rw [if_neg (fun h => hnd.1 h.1), if_pos rfl, if_pos ⟨by simp, fun h => hij h.symm⟩]
          · simp only [if_neg ha, hmem a ha]
        · funext a k
          by_cases ha : a = j
          · subst ha
            dsimp only
            rw [if_neg (fun h => hnd.1 h.1), if_pos rfl, if_pos ⟨by simp, fun h => hij h.symm⟩]
          · simp only [if_neg ha, hmem a ha]

/-- What the inner loop makes of all rows. -/
def cleared (i : Fin n) (m : Mat F n × Mat F n) : Mat F n × Mat F n :=
  (fun a k => if a ≠ i then m.1 a k - m.1 a i * (m.1 i i)⁻¹ * m.1 i k else m.1 a k,
   fun a k => if a ≠ i then m.2 a k - m.1 a i * (m.1 i i)⁻¹ * m.2 i k else m.2 a k)

theorem clear_all (i : Fin n) (m : Mat F n × Mat F n) :
    (List.finRange n).foldlM (clear i) m =
      if 1 < n → m.1 i i ≠ 0 then some (cleared i m) else none := by
  rw [clear_list i _ (List.nodup_finRange n)]
  have e : (∃ j ∈ List.finRange n, j ≠ i) ↔ 1 < n := by
    constructor
    · rintro ⟨j, -, hj⟩
      have := j.2
      have := i.2
      have : j.val ≠ i.val := fun h => hj (Fin.ext h)
      omega
    · intro h
      by_cases h0 : i.val = 0
      · exact ⟨⟨1, h⟩, List.mem_finRange _, fun h => by have := congrArg Fin.val h; simp [h0] at this⟩
      · exact ⟨⟨0, by omega⟩, List.mem_finRange _, fun h => h0 (congrArg Fin.val h).symm⟩
  have e2 : clearedIn (List.finRange n) i m = cleared i m := by
    unfold clearedIn cleared
    simp only [List.mem_finRange, true_and]
  rw [e2]
  simp only [e]

/-- What holds after the columns before `i`. -/
structure Inv (M : Matrix (Fin n) (Fin n) F) (i : Nat) (m : Mat F n × Mat F n) : Prop where
  prod : Matrix.of m.1 = Matrix.of m.2 * M
  zero : ∀ k a : Fin n, k.val < i → a ≠ k → m.1 a k = 0
  nz : 1 < n → ∀ k : Fin n, k.val < i → m.1 k k ≠ 0
  minor : ∀ s (h : s ≤ n), i ≤ s → leadingMinor (Matrix.of m.1) s h = leadingMinor M s h

theorem Inv.pivot {M : Matrix (Fin n) (Fin n) F} {i : Nat} {m : Mat F n × Mat F n} (h : Inv M i m)
    (hi : i < n) : leadingMinor M (i + 1) hi = ∏ k : Fin (i + 1), m.1 (Fin.castLE hi k) (Fin.castLE hi k) := by
  rw [← h.minor (i + 1) hi (by omega)]
  unfold leadingMinor
  rw [Matrix.det_of_isUpperTriangular]
  · rfl
  · intro a b hab
    show m.1 (Fin.castLE hi a) (Fin.castLE hi b) = 0
    have hab' : b.val < a.val := hab
    have := a.2
    refine h.zero _ _ ?_ ?_
    · show b.val < i
      omega
    · intro e
      have : a.val = b.val := congrArg (fun x : Fin n => x.val) e
      omega

theorem Inv.step {M : Matrix (Fin n) (Fin n) F} {i : Fin n} {m : Mat F n × Mat F n} (h : Inv M i.val m)
    (hp : 1 < n → m.1 i i ≠ 0) : Inv M (i.val + 1) (cleared i m) := by
  have hz : ∀ k : Fin n, k.val < i.val → m.1 i k = 0 := fun k hk =>
    h.zero k i hk (fun e => by rw [e] at hk; exact absurd hk (lt_irrefl _))
  refine ⟨?_, ?_, ?_, ?_⟩
  · ext a b
    have hrow : ∀ a, m.1 a b = ∑ k, m.2 a k * M k b := by
      intro a
      have := congrFun (congrFun h.prod a) b
      rw [Matrix.mul_apply] at this
      exact this
    rw [Matrix.mul_apply]
    show (if a ≠ i then m.1 a b - m.1 a i * (m.1 i i)⁻¹ * m.1 i b else m.1 a b) =
      ∑ k, (if a ≠ i then m.2 a k - m.1 a i * (m.1 i i)⁻¹ * m.2 i k else m.2 a k) * M k b
    by_cases ha : a = i
    · simp only [if_neg (not_not.2 ha)]
      exact hrow a
    · simp only [if_pos ha]
      rw [hrow a, hrow i, Finset.mul_sum, ← Finset.sum_sub_distrib]
      refine Finset.sum_congr rfl fun k _ => ?_
      ring
  · intro k a hk ha
    show (if a ≠ i then m.1 a k - m.1 a i * (m.1 i i)⁻¹ * m.1 i k else m.1 a k) = 0
    by_cases hki : k = i
    · subst hki
      rw [if_pos ha]
      have hn : 1 < n := by
        have h1 := a.2
        have h2 := k.2
        have : a.val ≠ k.val := fun e => ha (Fin.ext e)
        omega
      have := hp hn
      field_simp
      ring
    · have hlt : k.val < i.val := by
        have : k.val ≠ i.val := fun e => hki (Fin.ext e)
        omega
      rw [hz k hlt, h.zero k a hlt ha]
      simp
  · intro hn k hk
    show (if k ≠ i then m.1 k k - m.1 k i * (m.1 i i)⁻¹ * m.1 i k else m.1 k k) ≠ 0
    by_cases hki : k = i
    · subst hki
      simp only [ne_eq, not_true_eq_false, if_false]
      exact hp hn
    · have hlt : k.val < i.val := by
        have : k.val ≠ i.val := fun e => hki (Fin.ext e)
        omega
      rw [if_pos hki, hz k hlt, mul_zero, sub_zero]
      exact h.nz hn k hlt
  · intro s hs hle
    rw [← h.minor s hs (by omega)]
    unfold leadingMinor
    refine Matrix.det_eq_of_forall_row_eq_smul_add_const
      (fun a => if Fin.castLE hs a ≠ i then - (m.1 (Fin.castLE hs a) i * (m.1 i i)⁻¹) else 0)
      ⟨i.val, by omega⟩ ?_ ?_
    · show (if (Fin.castLE hs ⟨i.val, by omega⟩ : Fin n) ≠ i then _ else (0 : F)) = 0
      exact if_neg (not_not.2 (Fin.ext rfl))
    · intro a b
      show (if Fin.castLE hs a ≠ i then _ else _) = m.1 (Fin.castLE hs a) (Fin.castLE hs b) +
        (if Fin.castLE hs a ≠ i then _ else (0 : F)) * m.1 i (Fin.castLE hs b)
      by_cases ha : Fin.castLE hs a = i
      · simp only [if_neg (not_not.2 ha)]
        ring
      · simp only [if_pos ha]
        ring

theorem inv_zero (M : Mat F n) : Inv (Matrix.of M) 0 (M, identity) :=
  ⟨by rw [identity_eq, Matrix.one_mul], fun k a h => absurd h (Nat.not_lt_zero _),
    fun _ k h => absurd h (Nat.not_lt_zero _), fun _ _ _ => rfl⟩

/-- The outer loop over the first columns. -/
def clearFirst (i : Nat) (M : Mat F n) : Option (Mat F n × Mat F n) :=
  ((List.finRange n).take i).foldlM (fun m i => (List.finRange n).foldlM (clear i) m) (M, identity)

theorem clearFirst_succ {i : Nat} (hi : i < n) (M : Mat F n) :
    clearFirst (i + 1) M = (clearFirst i M).bind fun m =>
      if 1 < n → m.1 ⟨i, hi⟩ ⟨i, hi⟩ ≠ 0 then some (cleared ⟨i, hi⟩ m) else none := by
  unfold clearFirst
  have e : (List.finRange n).take (i + 1) = (List.finRange n).take i ++ [⟨i, hi⟩] := by
    rw [List.take_succ, List.getElem?_eq_getElem (by simpa using hi)]
    simp
  rw [e, List.foldlM_append]
  show Option.bind _ _ = _
  congr 1
  funext m
  rw [List.foldlM_cons, clear_all]
  split <;> rfl

theorem clearFirst_some {M : Mat F n} : ∀ {i : Nat} {m : Mat F n × Mat F n}, i ≤ n →
    clearFirst i M = some m → Inv (Matrix.of M) i m ∧
      (1 < n → ∀ s (h : s ≤ n), s ≤ i → leadingMinor (Matrix.of M) s h ≠ 0) := by
  intro i
  induction i with
  | zero =>
    intro m _ h
    have : m = (M, identity) := by
      have e : clearFirst 0 M = some (M, identity) := rfl
      rw [e] at h
      exact (Option.some.inj h).symm
    subst this
    refine ⟨inv_zero M, fun _ s h hs => ?_⟩
    have : s = 0 := by omega
    subst this
    unfold leadingMinor
    rw [Matrix.det_isEmpty]
    exact one_ne_zero
  | succ i ih =>
    intro m hi h
    rw [clearFirst_succ (by omega)] at h
    obtain ⟨m', hm', h⟩ := Option.bind_eq_some_iff.1 h
    obtain ⟨h1, h2⟩ := ih (by omega) hm'
    by_cases hp : 1 < n → m'.1 ⟨i, by omega⟩ ⟨i, by omega⟩ ≠ 0
    · rw [if_pos hp] at h
      have := Option.some.inj h
      subst this
      refine ⟨h1.step hp, fun hn s hs hle => ?_⟩
      by_cases hsi : s ≤ i
      · exact h2 hn s hs hsi
      · have : s = i + 1 := by omega
        subst this
        rw [h1.pivot (by omega), Finset.prod_ne_zero_iff]
        intro k _
        by_cases hk : k.val < i
        · exact h1.nz hn _ hk
        · have hk' : Fin.castLE (show i + 1 ≤ n by omega) k = ⟨i, by omega⟩ := Fin.ext (by
            have := k.2
            show k.val = i
            omega)
          rw [hk']
          exact hp hn
    · rw [if_neg hp] at h
      cases h

theorem clearFirst_exists {M : Mat F n} (hM : LeadingMinors (Matrix.of M)) : ∀ {i : Nat}, i ≤ n →
    ∃ m, clearFirst i M = some m ∧ Inv (Matrix.of M) i m := by
  intro i
  induction i with
  | zero => intro _; exact ⟨_, rfl, inv_zero M⟩
  | succ i ih =>
    intro hi
    obtain ⟨m, h1, h2⟩ := ih (by omega)
    have hp : m.1 ⟨i, by omega⟩ ⟨i, by omega⟩ ≠ 0 := by
      have h3 := hM (i + 1) (by omega)
      rw [h2.pivot (by omega), Finset.prod_ne_zero_iff] at h3
      exact h3 ⟨i, by omega⟩ (Finset.mem_univ _)
    refine ⟨_, ?_, h2.step fun _ => hp⟩
    rw [clearFirst_succ (by omega), h1]
    exact if_pos fun _ => hp

theorem clearAll_eq (M : Mat F n) : clearAll (M, identity) = clearFirst n M := by
  unfold clearAll clearFirst
  rw [List.take_of_length_le (by simp)]

/-- If it returns, the result is the inverse and all leading minors differ from 0. -/
theorem invert_some {M R : Mat F n} (h : invert M = some R) :
    Matrix.of R * Matrix.of M = 1 ∧ LeadingMinors (Matrix.of M) := by
  unfold invert at h
  obtain ⟨m, hm, h⟩ := Option.bind_eq_some_iff.1 h
  rw [clearAll_eq] at hm
  obtain ⟨h1, h2⟩ := clearFirst_some (le_refl n) hm
  by_cases hd : ∀ i, m.1 i i ≠ 0
  swap
  · rw [if_neg hd] at h; cases h
  rw [if_pos hd] at h
  have := Option.some.inj h
  subst this
  constructor
  · ext a b
    have hrow : m.1 a b = ∑ k, m.2 a k * M k b := by
      have := congrFun (congrFun h1.prod a) b
      rw [Matrix.mul_apply] at this
      exact this
    rw [Matrix.mul_apply]
    show ∑ k, m.2 a k * (m.1 a a)⁻¹ * M k b = _
    have e : ∑ k, m.2 a k * (m.1 a a)⁻¹ * M k b = (m.1 a a)⁻¹ * m.1 a b := by
      rw [hrow, Finset.mul_sum]
      exact Finset.sum_congr rfl fun k _ => by ring
    rw [e]
    by_cases hab : a = b
    · subst hab
      rw [Matrix.one_apply_eq, inv_mul_cancel₀ (hd a)]
    · rw [Matrix.one_apply_ne hab, h1.zero b a b.2 hab, mul_zero]
  · intro s hs
    by_cases hn : 1 < n
    · exact h2 hn s hs hs
    · by_cases hs0 : s = 0
      · subst hs0
        unfold leadingMinor
        rw [Matrix.det_isEmpty]
        exact one_ne_zero
      · have hsn : s = n := by omega
        subst hsn
        rw [← h1.minor s (le_refl s) (le_refl s)]
        have h10 : s = 1 := by omega
        subst h10
        unfold leadingMinor
        rw [Matrix.det_fin_one]
        exact hd _

/-- If all leading minors differ from 0, it returns. -/
theorem invert_exists {M : Mat F n} (hM : LeadingMinors (Matrix.of M)) : ∃ R, invert M = some R := by
  obtain ⟨m, h1, h2⟩ := clearFirst_exists hM (le_refl n)
  have hd : ∀ i, m.1 i i ≠ 0 := by
    have h3 := hM n (le_refl n)
    rw [← h2.minor n (le_refl n) (le_refl n)] at h3
    unfold leadingMinor at h3
    rw [Matrix.det_of_isUpperTriangular, Finset.prod_ne_zero_iff] at h3
    · intro i
      exact h3 i (Finset.mem_univ _)
    · intro a b hab
      exact h2.zero b a b.2 (ne_of_gt hab)
  refine ⟨fun i j => m.2 i j * (m.1 i i)⁻¹, ?_⟩
  unfold invert
  rw [clearAll_eq, h1]
  exact if_pos hd

theorem invert_iff {M : Mat F n} : (∃ R, invert M = some R) ↔ LeadingMinors (Matrix.of M) :=
  ⟨fun ⟨_, h⟩ => (invert_some h).2, invert_exists⟩

end Verif.Pos
