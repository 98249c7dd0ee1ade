import Verif.Model.Arith
import Mathlib.Algebra.BigOperators.Fin
import Mathlib.Algebra.BigOperators.Intervals
import Mathlib.Algebra.BigOperators.GroupWithZero.Action
import Mathlib.Algebra.Field.GeomSum
import Mathlib.RingTheory.RootsOfUnity.PrimitiveRoots
import Mathlib.Tactic.LinearCombination
import Mathlib.Tactic.Module
import Mathlib.Tactic.Ring

/-!
The fast Fourier transform computes the discrete Fourier transform.
-/

set_option linter.unusedSectionVars false

namespace Verif

open Finset

variable {M : Type} [AddCommGroup M] [Module Fr M]

theorem bitreverse_acc (l : Nat) : ∀ n r, bitreverse l n r = r * 2 ^ l + bitreverse l n 0 := by
  induction l with
  | zero => intro n r; simp [bitreverse]
  | succ l ih =>
    intro n r
    rw [bitreverse, bitreverse, ih, ih (n / 2) (2 * 0 + n % 2)]
    ring

theorem bitreverse_succ (l k b : Nat) (hb : b < 2) :
    bitreverse (l + 1) (2 * k + b) 0 = b * 2 ^ l + bitreverse l k 0 := by
  rw [bitreverse, bitreverse_acc]
  congr 2
  · have : (2 * k + b) % 2 = b := by omega
    rw [this]; ring
  · omega

theorem bitreverse_lt (l : Nat) : ∀ n, bitreverse l n 0 < 2 ^ l := by
  induction l with
  | zero => intro n; simp [bitreverse]
  | succ l ih =>
    intro n
    have h := ih (n / 2)
    have e : n = 2 * (n / 2) + n % 2 := by omega
    rw [e, bitreverse_succ _ _ _ (by omega)]
    have h2 : n % 2 < 2 := by omega
    rw [pow_succ]
    generalize n % 2 = b at *
    rcases b with _ | _ | b
    · omega
    · omega
    · omega

/-- Reversing from the other end. -/
theorem bitreverse_high (l : Nat) : ∀ k b, k < 2 ^ l → b < 2 →
    bitreverse (l + 1) (b * 2 ^ l + k) 0 = 2 * bitreverse l k 0 + b := by
  induction l with
  | zero =>
    intro k b hk hb
    have : k = 0 := by omega
    subst this
    simp [bitreverse]; omega
  | succ l ih =>
    intro k b hk hb
    have e : b * 2 ^ (l + 1) + k = 2 * (b * 2 ^ l + k / 2) + k % 2 := by
      rw [pow_succ]; have := Nat.div_add_mod k 2; nlinarith
    have hk2 : k / 2 < 2 ^ l := by rw [pow_succ] at hk; omega
    rw [e, bitreverse_succ _ _ _ (by omega), ih _ _ hk2 hb]
    have e2 : k = 2 * (k / 2) + k % 2 := by omega
    conv_rhs => rw [e2, bitreverse_succ _ _ _ (by omega : k % 2 < 2)]
    rw [pow_succ]; ring

theorem bitreverse_invol (l : Nat) : ∀ n, n < 2 ^ l →
    bitreverse l (bitreverse l n 0) 0 = n := by
  induction l with
  | zero => intro n hn; simp [bitreverse]; omega
  | succ l ih =>
    intro n hn
    have hn2 : n / 2 < 2 ^ l := by rw [pow_succ] at hn; omega
    have e : n = 2 * (n / 2) + n % 2 := by omega
    conv_lhs => rw [e, bitreverse_succ _ _ _ (by omega : n % 2 < 2)]
    rw [bitreverse_high _ _ _ (bitreverse_lt _ _) (by omega), ih _ hn2]
    omega

/-- What the reordering loop has done after `j` iterations. -/
theorem reorder_spec (l : Nat) (a : Nat → M) : ∀ j, j ≤ 2 ^ l → ∀ i,
    reorder l j a i =
      if i < 2 ^ l ∧ (i < j ∨ bitreverse l i 0 < j) then a (bitreverse l i 0) else a i := by
  intro j
  induction j with
  | zero => intro _ i; simp [reorder]
  | succ j ih =>
    intro hj i
    have ih := ih (by omega)
    have hstep : reorder l (j + 1) a =
        if j < bitreverse l j 0 then swapAt (reorder l j a) (bitreverse l j 0) j
        else reorder l j a := by
      simp only [reorder, List.range_succ, List.foldl_append, List.foldl_cons, List.foldl_nil]
    have hjl : j < 2 ^ l := by omega
    have hinv := bitreverse_invol l j hjl
    have hlt := bitreverse_lt l j
    rw [hstep]
    split
    · next hjr =>
      by_cases hij : i = j
      · subst hij
        have h1 := ih (bitreverse l i 0)
        simp only [swapAt, Function.update_self]
        rw [h1, if_neg (by rw [hinv]; omega), if_pos (by omega)]
      · by_cases hir : i = bitreverse l j 0
        · subst hir
          simp only [swapAt]
          rw [Function.update_of_ne hij, Function.update_self, ih j, if_neg (by omega), hinv,
            if_pos (by omega)]
        · simp only [swapAt]
          rw [Function.update_of_ne hij, Function.update_of_ne hir, ih i]
          by_cases hi : i < 2 ^ l
          · have hne : bitreverse l i 0 ≠ j := by
              intro h; apply hir; rw [← h, bitreverse_invol l i hi]
            congr 1
            apply propext
            constructor
            · rintro ⟨h1, h2⟩; exact ⟨h1, by omega⟩
            · rintro ⟨h1, h2⟩; exact ⟨h1, by omega⟩
          · rw [if_neg (by omega), if_neg (by omega)]
    · next hjr =>
      rw [ih i]
      by_cases hi : i < 2 ^ l
      · by_cases hij : i = j
        · subst hij
          rcases Nat.lt_or_ge (bitreverse l i 0) i with h | h
          · rw [if_pos (by omega), if_pos (by omega)]
          · have : bitreverse l i 0 = i := by omega
            rw [if_neg (by omega), if_pos (by omega), this]
        · by_cases hir : bitreverse l i 0 = j
          · have : bitreverse l j 0 = i := by rw [← hir, bitreverse_invol l i hi]
            rw [if_pos (by omega), if_pos (by omega)]
          · congr 1
            apply propext
            constructor
            · rintro ⟨h1, h2⟩; exact ⟨h1, by omega⟩
            · rintro ⟨h1, h2⟩; exact ⟨h1, by omega⟩
      · rw [if_neg (by omega), if_neg (by omega)]

theorem reorder_eq (l : Nat) (a : Nat → M) (i : Nat) (hi : i < 2 ^ l) :
    reorder l (2 ^ l) a i = a (bitreverse l i 0) := by
  rw [reorder_spec l a _ le_rfl, if_pos ⟨hi, Or.inl hi⟩]

/-- The innermost loop after `j` iterations. -/
theorem block_spec (wm : Fr) (m k : Nat) (a : Nat → M) : ∀ j, j ≤ m →
    ((List.range j).foldl (butterfly wm m k) (1, a)).1 = wm ^ j ∧
    ∀ i, ((List.range j).foldl (butterfly wm m k) (1, a)).2 i =
      if k ≤ i ∧ i < k + j then a i + wm ^ (i - k) • a (i + m)
      else if k + m ≤ i ∧ i < k + m + j then a (i - m) - wm ^ (i - m - k) • a i
      else a i := by
  intro j
  induction j with
  | zero =>
    intro _
    refine ⟨by simp, fun i => ?_⟩
    rw [if_neg (by omega), if_neg (by omega)]
    rfl
  | succ j ih =>
    intro hj
    obtain ⟨h1, h2⟩ := ih (by omega)
    rw [List.range_succ, List.foldl_append, List.foldl_cons, List.foldl_nil]
    generalize (List.range j).foldl (butterfly wm m k) (1, a) = s at h1 h2
    refine ⟨by simp only [butterfly]; rw [h1, pow_succ], fun i => ?_⟩
    have ha := h2 (k + j)
    have hb := h2 (k + j + m)
    rw [if_neg (by omega), if_neg (by omega)] at ha
    rw [if_neg (by omega), if_neg (by omega)] at hb
    simp only [butterfly]
    by_cases hi1 : i = k + j
    · subst hi1
      rw [Function.update_self, Function.update_of_ne (by omega), ha, hb, h1, if_pos (by omega)]
      congr 3; omega
    · rw [Function.update_of_ne hi1]
      by_cases hi2 : i = k + j + m
      · subst hi2
        rw [Function.update_self, ha, hb, h1, if_neg (by omega), if_pos (by omega)]
        congr 1
        · congr 1; omega
        · congr 2; omega
      · rw [Function.update_of_ne hi2, h2 i]
        by_cases c1 : k ≤ i ∧ i < k + j
        · rw [if_pos c1, if_pos (by omega)]
        · have c1' : ¬ (k ≤ i ∧ i < k + (j + 1)) := by omega
          rw [if_neg c1, if_neg c1']
          by_cases c2 : k + m ≤ i ∧ i < k + m + j
          · rw [if_pos c2, if_pos (by omega)]
          · have c2' : ¬ (k + m ≤ i ∧ i < k + m + (j + 1)) := by omega
            rw [if_neg c2, if_neg c2']

theorem block_low (wm : Fr) (m k : Nat) (a : Nat → M) (j : Nat) (hj : j < m) :
    block wm m k a (k + j) = a (k + j) + wm ^ j • a (k + j + m) := by
  rw [block, (block_spec wm m k a m le_rfl).2, if_pos (by omega)]
  congr 3; omega

theorem block_high (wm : Fr) (m k : Nat) (a : Nat → M) (j : Nat) (hj : j < m) :
    block wm m k a (k + m + j) = a (k + j) - wm ^ j • a (k + j + m) := by
  rw [block, (block_spec wm m k a m le_rfl).2, if_neg (by omega), if_pos (by omega)]
  congr 1
  · congr 1; omega
  · congr 2
    · omega
    · omega

theorem block_other (wm : Fr) (m k : Nat) (a : Nat → M) (i : Nat) (hi : i < k ∨ k + 2 * m ≤ i) :
    block wm m k a i = a i := by
  rw [block, (block_spec wm m k a m le_rfl).2, if_neg (by omega), if_neg (by omega)]

/-- The loop over the blocks after `c` blocks. -/
theorem blocks_spec (wm : Fr) (m : Nat) (a : Nat → M) (c : Nat) :
    (∀ b < c, ∀ j < m,
      (List.range c).foldl (fun a b => block wm m (2 * m * b) a) a (2 * m * b + j)
        = a (2 * m * b + j) + wm ^ j • a (2 * m * b + j + m)
      ∧ (List.range c).foldl (fun a b => block wm m (2 * m * b) a) a (2 * m * b + m + j)
        = a (2 * m * b + j) - wm ^ j • a (2 * m * b + j + m)) ∧
    ∀ i, 2 * m * c ≤ i → (List.range c).foldl (fun a b => block wm m (2 * m * b) a) a i = a i := by
  induction c with
  | zero => exact ⟨by intro b hb; omega, fun i _ => rfl⟩
  | succ c ih =>
    obtain ⟨h1, h2⟩ := ih
    rw [List.range_succ, List.foldl_append, List.foldl_cons, List.foldl_nil]
    generalize (List.range c).foldl (fun a b => block wm m (2 * m * b) a) a = s at h1 h2
    refine ⟨fun b hb j hj => ?_, fun i hi => ?_⟩
    · by_cases hbc : b = c
      · subst hbc
        rw [block_low _ _ _ _ _ hj, block_high _ _ _ _ _ hj, h2 _ (by omega), h2 _ (by omega)]
        exact ⟨rfl, rfl⟩
      · have hbc' : b < c := by omega
        have hle : 2 * m * (b + 1) ≤ 2 * m * c := Nat.mul_le_mul_left _ hbc'
        have hexp : 2 * m * (b + 1) = 2 * m * b + 2 * m := by ring
        rw [block_other _ _ _ _ _ (Or.inl (by omega)), block_other _ _ _ _ _ (Or.inl (by omega))]
        exact h1 b hbc' j hj
    · have hexp : 2 * m * (c + 1) = 2 * m * c + 2 * m := by ring
      rw [block_other _ _ _ _ _ (Or.inr (by omega)), h2 _ (by omega)]

/-- The partial transform: `k` picks the residue class, `j` the frequency. -/
def partialDft (omega : Fr) (l s : Nat) (a : Nat → M) (k j : Nat) : M :=
  ∑ i ∈ range (2 ^ s), omega ^ (2 ^ (l - s) * (i * j)) •
    a (bitreverse (l - s) k 0 + i * 2 ^ (l - s))

theorem sum_even_odd (f : Nat → M) (m : Nat) :
    ∑ i ∈ range (2 * m), f i = ∑ i ∈ range m, f (2 * i) + ∑ i ∈ range m, f (2 * i + 1) := by
  induction m with
  | zero => simp
  | succ m ih =>
    rw [show 2 * (m + 1) = 2 * m + 1 + 1 by ring, sum_range_succ, sum_range_succ, ih,
      sum_range_succ, sum_range_succ]
    abel

theorem fft_rounds (omega : Fr) (l : Nat) (a : Nat → M)
    (hw : 0 < l → omega ^ 2 ^ (l - 1) = -1) : ∀ s, s ≤ l → ∀ k < 2 ^ (l - s), ∀ j < 2 ^ s,
    (List.range s).foldl (fun t r => round omega (2 ^ l) (2 ^ r) t) (reorder l (2 ^ l) a)
      (k * 2 ^ s + j) = partialDft omega l s a k j := by
  intro s
  induction s with
  | zero =>
    intro _ k hk j hj
    have : j = 0 := by simpa using hj
    subst this
    simp only [List.range_zero, List.foldl_nil, pow_zero, mul_one, Nat.add_zero, Nat.sub_zero] at *
    rw [reorder_eq _ _ _ hk, partialDft]
    simp
  | succ s ih =>
    intro hs k hk j hj
    have ih := ih (by omega)
    rw [List.range_succ, List.foldl_append, List.foldl_cons, List.foldl_nil]
    generalize (List.range s).foldl (fun t r => round omega (2 ^ l) (2 ^ r) t)
      (reorder l (2 ^ l) a) = t at ih
    -- sizes
    have e1 : l - s = (l - (s + 1)) + 1 := by omega
    generalize hd : l - (s + 1) = d at *
    have hl : l = d + 1 + s := by omega
    have e2 : 2 ^ l = 2 * 2 ^ s * 2 ^ d := by rw [hl, pow_add, pow_succ]; ring
    have hm : 0 < 2 ^ s := by positivity
    have hcount : (2 ^ l + 2 * 2 ^ s - 1) / (2 * 2 ^ s) = 2 ^ d := by
      rw [e2]
      have hp : 0 < 2 * 2 ^ s := by positivity
      rw [show 2 * 2 ^ s * 2 ^ d + 2 * 2 ^ s - 1 = (2 * 2 ^ s - 1) + 2 * 2 ^ s * 2 ^ d by omega,
        Nat.add_mul_div_left _ _ hp, Nat.div_eq_of_lt (by omega)]
      omega
    have hpow : 2 ^ l / (2 * 2 ^ s) = 2 ^ d := by
      rw [e2]; exact Nat.mul_div_cancel_left _ (by positivity)
    rw [round, hcount, hpow]
    -- the two halves of one block
    have hA : ∀ j' < 2 ^ s, t (2 * 2 ^ s * k + j') = partialDft omega l s a (2 * k) j' := by
      intro j' hj'
      have := ih (2 * k) (by rw [e1, pow_succ]; omega) j' hj'
      rw [← this]; congr 1; ring
    have hB : ∀ j' < 2 ^ s, t (2 * 2 ^ s * k + j' + 2 ^ s)
        = partialDft omega l s a (2 * k + 1) j' := by
      intro j' hj'
      have := ih (2 * k + 1) (by rw [e1, pow_succ]; omega) j' hj'
      rw [← this]; congr 1; ring
    -- splitting the sum
    have split : ∀ J, partialDft omega l (s + 1) a k J
        = partialDft omega l s a (2 * k) J
          + (omega ^ 2 ^ d) ^ J • partialDft omega l s a (2 * k + 1) J := by
      intro J
      simp only [partialDft, hd, e1]
      rw [pow_succ 2 s, mul_comm (2 ^ s) 2, sum_even_odd, smul_sum]
      have hr0 := bitreverse_succ d k 0 (by omega)
      have hr1 := bitreverse_succ d k 1 (by omega)
      simp only [Nat.add_zero] at hr0
      rw [hr0, hr1]
      congr 1
      · apply sum_congr rfl
        intro i _
        congr 2
        · rw [pow_succ 2 d]; ring
        · rw [pow_succ 2 d]; ring
      · apply sum_congr rfl
        intro i _
        rw [smul_smul, ← pow_mul, ← pow_add]
        congr 2
        · rw [pow_succ 2 d]; ring
        · rw [pow_succ 2 d]; ring
    -- frequencies of the upper half
    have shift : ∀ J K, partialDft omega l s a K (2 ^ s + J) = partialDft omega l s a K J := by
      intro J K
      simp only [partialDft]
      apply sum_congr rfl
      intro i _
      congr 1
      rw [mul_add, mul_add, pow_add]
      have : omega ^ (2 ^ (l - s) * (i * 2 ^ s)) = 1 := by
        rw [show 2 ^ (l - s) * (i * 2 ^ s) = 2 ^ l * i by
          rw [show 2 ^ l = 2 ^ (l - s) * 2 ^ s by rw [← pow_add]; congr 1; omega]; ring, pow_mul]
        have h1 : omega ^ 2 ^ l = 1 := by
          rw [show l = (l - 1) + 1 by omega, pow_succ, pow_mul, hw (by omega)]; ring
        rw [h1, one_pow]
      rw [this, one_mul]
    have hneg : (omega ^ 2 ^ d) ^ 2 ^ s = -1 := by
      rw [← pow_mul, ← pow_add, ← hw (by omega)]
      congr 2; omega
    rw [split]
    have spec := (blocks_spec (omega ^ 2 ^ d) (2 ^ s) t (2 ^ d)).1 k hk
    rcases Nat.lt_or_ge j (2 ^ s) with hjs | hjs
    · rw [show k * 2 ^ (s + 1) + j = 2 * 2 ^ s * k + j by rw [pow_succ]; ring,
        (spec j hjs).1, hA j hjs, hB j hjs]
    · obtain ⟨j', rfl⟩ := Nat.exists_eq_add_of_le hjs
      have hj' : j' < 2 ^ s := by rw [pow_succ] at hj; omega
      rw [show k * 2 ^ (s + 1) + (2 ^ s + j') = 2 * 2 ^ s * k + 2 ^ s + j' by rw [pow_succ]; ring,
        (spec j' hj').2, hA j' hj', hB j' hj', shift, shift, pow_add, hneg]
      module

/-- The transform of a slice of `2^l` values. -/
theorem bestFft_ok (a : List M) (omega : Fr) (l : Nat) (hl : l < 32) (hlen : a.length = 2 ^ l)
    (hw : 0 < l → omega ^ 2 ^ (l - 1) = -1) :
    bestFft a omega l = .ok ((List.range (2 ^ l)).map fun j =>
      ∑ i ∈ range (2 ^ l), omega ^ (i * j) • a.getD i 0) := by
  have hlt : 2 ^ l < 2 ^ 32 := Nat.pow_lt_pow_right (by norm_num) hl
  have hmod : a.length % 2 ^ 32 = 2 ^ l := by rw [hlen, Nat.mod_eq_of_lt hlt]
  unfold bestFft
  simp only [hmod]
  rw [if_neg (by omega), if_neg (by simp), hlen]
  congr 1
  apply List.map_congr_left
  intro j hj
  have hj : j < 2 ^ l := List.mem_range.1 hj
  have := fft_rounds omega l (fun i => a.getD i 0) hw l le_rfl 0 (by simp) j hj
  rw [zero_mul, zero_add] at this
  rw [this, partialDft]
  apply sum_congr rfl
  intro i _
  simp [bitreverse]

end Verif
