import Verif.Lemmas.StepLemmas

/-! What sorted tables say about the rows they rearrange (helper for the property theorems). -/

namespace Verif

open Spec

theorem Fr.val_add_one {a : Fr} (h : a.val + 1 < P) : (a + 1).val = a.val + 1 := by
  have e : a + 1 = ((a.val + 1 : Nat) : Fr) := by push_cast; rw [ZMod.natCast_val, ZMod.cast_id]
  rw [e, Fr.val_cast h]

theorem Fr.cast_val (a : Fr) : ((a.val : Nat) : Fr) = a := by rw [ZMod.natCast_val, ZMod.cast_id]

theorem Fr.val_inj {a b : Fr} (h : a.val = b.val) : a = b := by
  rw [← Fr.cast_val a, ← Fr.cast_val b, h]

/-- A sorted memory table: it starts at cell 0, cells follow each other without gaps, rows of one
cell are in the order of the clock; a cell starts at 0 and keeps its value unless the clock moves by
one. -/
structure MemSorted (len : Nat) (clk mp mv : Nat → Fr) : Prop where
  first : 0 < len → mp 0 = 0
  step : ∀ k, k + 1 < len →
    (mp (k + 1) = mp k ∧ (clk k).val < (clk (k + 1)).val ∧
      (clk (k + 1) ≠ clk k + 1 → mv (k + 1) = mv k)) ∨
    (mp (k + 1) = mp k + 1 ∧ mv (k + 1) = 0)

section Mem

variable {L Lm : Nat} {clk mp mv clk' mp' mv' : Nat → Fr}

theorem MemSorted.small (h : MemSorted Lm clk' mp' mv') (hP : Lm < P) :
    ∀ k, k < Lm → (mp' k).val ≤ k := by
  intro k
  induction k with
  | zero => intro hk; rw [h.first hk]; simp
  | succ k ih =>
    intro hk
    have := ih (by omega)
    rcases h.step k hk with ⟨e, -⟩ | ⟨e, -⟩
    · rw [e]; omega
    · rw [e, Fr.val_add_one (by omega)]; omega

theorem MemSorted.next (h : MemSorted Lm clk' mp' mv') (hP : Lm < P) {k : Nat} (hk : k + 1 < Lm) :
    ((mp' (k + 1)).val = (mp' k).val ∧ (clk' k).val < (clk' (k + 1)).val ∧
      (clk' (k + 1) ≠ clk' k + 1 → mv' (k + 1) = mv' k)) ∨
    ((mp' (k + 1)).val = (mp' k).val + 1 ∧ mv' (k + 1) = 0) := by
  have := h.small hP k (by omega)
  rcases h.step k hk with ⟨e, h1, h2⟩ | ⟨e, h1⟩
  · exact Or.inl ⟨by rw [e], h1, h2⟩
  · exact Or.inr ⟨by rw [e, Fr.val_add_one (by omega)], h1⟩

/-- Position of a row in the order by cell and clock. -/
theorem MemSorted.key (h : MemSorted Lm clk' mp' mv') (hP : Lm < P)
    (hclk : ∀ k, k < Lm → (clk' k).val < L) :
    ∀ k m, k < m → m < Lm → (mp' k).val * L + (clk' k).val < (mp' m).val * L + (clk' m).val := by
  intro k m hkm
  induction m with
  | zero => omega
  | succ m ih =>
    intro hm
    have hstep : (mp' m).val * L + (clk' m).val < (mp' (m + 1)).val * L + (clk' (m + 1)).val := by
      rcases h.next hP hm with ⟨e, h1, -⟩ | ⟨e, -⟩
      · rw [e]; omega
      · rw [e]
        have := hclk m (by omega)
        have : ((mp' m).val + 1) * L = (mp' m).val * L + L := by ring
        omega
    by_cases hkm' : k = m
    · subst hkm'; exact hstep
    · exact lt_trans (ih (by omega) (by omega)) hstep

/-- The rows of a processor table, rearranged into a sorted memory table, remember the cells. -/
theorem mem_remember (h : MemSorted Lm clk' mp' mv') (hP : Lm < P) (hLP : L < P)
    (hclk : ∀ i, i < L → clk i = (i : Fr))
    (h1 : ∀ i, i < L → ∃ k, k < Lm ∧ clk' k = clk i ∧ mp' k = mp i ∧ mv' k = mv i)
    (h2 : ∀ k, k < Lm → ∃ i, i < L ∧ clk' k = clk i ∧ mp' k = mp i ∧ mv' k = mv i)
    (hz : 0 < L → mp 0 = 0 ∧ mv 0 = 0) :
    (∀ i, i < L → (mp i).val < Lm) ∧
    (∀ i j, i < L → j + 1 < i → mp j = mp i → (∀ k, j < k → k < i → mp k ≠ mp i) → mv i = mv j) ∧
    (∀ i, i < L → (∀ j, j < i → mp j ≠ mp i) → mv i = 0) := by
  have hval : ∀ i, i < L → (clk i).val = i := by
    intro i hi; rw [hclk i hi, Fr.val_cast (by omega)]
  have hlt : ∀ k, k < Lm → (clk' k).val < L := by
    intro k hk
    obtain ⟨i, hi, e, -⟩ := h2 k hk
    rw [e, hval i hi]; exact hi
  have hkey := h.key hP hlt
  refine ⟨?_, ?_, ?_⟩
  · intro i hi
    obtain ⟨k, hk, -, e, -⟩ := h1 i hi
    rw [← e]
    exact lt_of_le_of_lt (h.small hP k hk) hk
  · intro i j hi hji hmp hno
    obtain ⟨ki, hki, ci, mi, vi⟩ := h1 i hi
    obtain ⟨kj, hkj, cj, mj, vj⟩ := h1 j (by omega)
    have hci : (clk' ki).val = i := by rw [ci, hval i hi]
    have hcj : (clk' kj).val = j := by rw [cj, hval j (by omega)]
    have hmm : (mp' kj).val = (mp' ki).val := by rw [mi, mj, hmp]
    have hlt' : kj < ki := by
      rcases lt_trichotomy kj ki with hh | hh | hh
      · exact hh
      · rw [hh] at hcj; omega
      · have := hkey ki kj hh hkj
        rw [hmm] at this; omega
    have hadj : ki = kj + 1 := by
      by_contra hne
      have a1 := hkey kj (kj + 1) (by omega) (by omega)
      have a2 := hkey (kj + 1) ki (by omega) hki
      obtain ⟨i', hi', c', m', -⟩ := h2 (kj + 1) (by omega)
      have hc' : (clk' (kj + 1)).val = i' := by rw [c', hval i' hi']
      rw [hcj, hmm, hc'] at a1
      rw [hci, hc'] at a2
      have hm1 : (mp' (kj + 1)).val = (mp' ki).val := by
        rcases lt_trichotomy (mp' (kj + 1)).val (mp' ki).val with hh | hh | hh
        · have : ((mp' (kj + 1)).val + 1) * L ≤ (mp' ki).val * L := Nat.mul_le_mul_right _ hh
          have : ((mp' (kj + 1)).val + 1) * L = (mp' (kj + 1)).val * L + L := by ring
          omega
        · exact hh
        · have : ((mp' ki).val + 1) * L ≤ (mp' (kj + 1)).val * L := Nat.mul_le_mul_right _ hh
          have : ((mp' ki).val + 1) * L = (mp' ki).val * L + L := by ring
          omega
      rw [hm1] at a1 a2
      refine hno i' (by omega) (by omega) ?_
      rw [← m', ← mi]
      exact Fr.val_inj hm1
    subst hadj
    rcases h.next hP (k := kj) hki with ⟨-, -, hv⟩ | ⟨e, -⟩
    · rw [← vi, ← vj]
      apply hv
      intro hc
      rw [ci, cj, hclk i hi, hclk j (by omega)] at hc
      have : ((i : Nat) : Fr) = ((j + 1 : Nat) : Fr) := by push_cast; exact hc
      rw [Fr.cast_inj (by omega) (by omega)] at this
      omega
    · omega
  · intro i hi hno
    obtain ⟨ki, hki, ci, mi, vi⟩ := h1 i hi
    cases ki with
    | zero =>
      have hmp0 := h.first hki
      obtain ⟨z1, z2⟩ := hz (by omega)
      have : i = 0 := by
        by_contra hne
        exact hno 0 (by omega) (by rw [z1, ← mi, hmp0])
      rw [this]; exact z2
    | succ k =>
      rcases h.next hP hki with ⟨e, hc, -⟩ | ⟨-, e⟩
      · obtain ⟨i', hi', c', m', -⟩ := h2 k (by omega)
        exfalso
        refine hno i' ?_ ?_
        · rw [c', ci, hval i' hi', hval i hi] at hc; exact hc
        · rw [← m', ← mi]; exact Fr.val_inj e.symm
      · rw [← vi]; exact e

end Mem

/-- An instruction table: instruction pointers from 0 to `top` without gaps, one pair of words per
pointer, and the second word is the first word of the next pointer. -/
structure InsSorted (len top : Nat) (ip ci ni : Nat → Fr) : Prop where
  pos : 0 < len
  first : ip 0 = 0
  last : ip (len - 1) = (top : Fr)
  step : ∀ k, k + 1 < len →
    (ip (k + 1) = ip k ∧ ci (k + 1) = ci k ∧ ni (k + 1) = ni k) ∨
    (ip (k + 1) = ip k + 1 ∧ ni k = ci (k + 1))

/-- The first words at the rows where the pointer moves. -/
def changes (ip ci : Nat → Fr) (len : Nat) : List Fr :=
  (List.range len).flatMap fun k => if ip (k + 1) = ip k then [] else [ci k]

theorem changes_succ (ip ci : Nat → Fr) (k : Nat) :
    changes ip ci (k + 1) = changes ip ci k ++ (if ip (k + 1) = ip k then [] else [ci k]) := by
  unfold changes
  rw [List.range_succ, List.flatMap_append]
  simp

theorem changes_prefix (ip ci : Nat → Fr) {k m : Nat} (h : k ≤ m) :
    changes ip ci k <+: changes ip ci m := by
  induction m with
  | zero => rw [Nat.le_zero.1 h]
  | succ m ih =>
    by_cases hk : k = m + 1
    · rw [hk]
    · rw [changes_succ]
      exact (ih (by omega)).trans (List.prefix_append _ _)

section Ins

variable {len top : Nat} {ip ci ni : Nat → Fr}

theorem ne_add_one (a : Fr) : a + 1 ≠ a := by
  intro h
  have : (1 : Fr) = 0 := by linear_combination h
  exact one_ne_zero this

theorem InsSorted.val (h : InsSorted len top ip ci ni) (hP : len < P) :
    ∀ k, k < len → (ip k).val = (changes ip ci k).length ∧ (ip k).val ≤ k := by
  intro k
  induction k with
  | zero => intro _; rw [h.first]; simp [changes]
  | succ k ih =>
    intro hk
    obtain ⟨e1, e2⟩ := ih (by omega)
    rw [changes_succ]
    rcases h.step k hk with ⟨e, -⟩ | ⟨e, -⟩
    · rw [if_pos e, e]; simp [← e1]; omega
    · rw [e, if_neg (ne_add_one _), Fr.val_add_one (by omega)]; simp [← e1]; omega

theorem InsSorted.top_eq (h : InsSorted len top ip ci ni) (hP : len < P) (ht : top < P) :
    (changes ip ci (len - 1)).length = top := by
  have := (h.val hP (len - 1) (by have := h.pos; omega)).1
  rw [h.last, Fr.val_cast ht] at this
  exact this.symm

/-- The words at a pointer are the words of the program. -/
theorem InsSorted.word (h : InsSorted len top ip ci ni) (hP : len < P) (ht : top < P)
    {ws : List Fr} (hw : changes ip ci (len - 1) = ws) :
    ∀ k, k < len → (ip k).val ≤ top ∧
      (∀ v, ws[(ip k).val]? = some v → ci k = v) ∧
      (∀ v, ws[(ip k).val + 1]? = some v → ni k = v) := by
  have hlen : ws.length = top := by rw [← hw]; exact h.top_eq hP ht
  have hword : ∀ k, k + 1 < len → ip (k + 1) ≠ ip k → ws[(ip k).val]? = some (ci k) := by
    intro k hk hne
    have hp := changes_prefix ip ci (show k + 1 ≤ len - 1 by omega)
    rw [hw, changes_succ, if_neg hne] at hp
    obtain ⟨t, ht⟩ := hp
    rw [(h.val hP k (by omega)).1, ← ht]
    simp
  -- from the end backwards
  have back : ∀ d k, k + d + 1 = len → (ip k).val ≤ top ∧
      (∀ v, ws[(ip k).val]? = some v → ci k = v) ∧
      (∀ v, ws[(ip k).val + 1]? = some v → ni k = v) := by
    intro d
    induction d with
    | zero =>
      intro k hk
      have e : k = len - 1 := by omega
      have hv : (ip k).val = top := by rw [e, h.last, Fr.val_cast ht]
      refine ⟨by omega, ?_, ?_⟩
      · intro v hv'
        rw [hv, List.getElem?_eq_none (by omega)] at hv'; cases hv'
      · intro v hv'
        rw [hv, List.getElem?_eq_none (by omega)] at hv'; cases hv'
    | succ d ih =>
      intro k hk
      obtain ⟨i1, i2, i3⟩ := ih (k + 1) (by omega)
      rcases h.step k (by omega) with ⟨e, e1, e2⟩ | ⟨e, e1⟩
      · rw [e] at i1 i2 i3
        rw [e1] at i2
        rw [e2] at i3
        exact ⟨i1, i2, i3⟩
      · have hne : ip (k + 1) ≠ ip k := by rw [e]; exact ne_add_one _
        have hv := (h.val hP k (by omega)).2
        have hval : (ip (k + 1)).val = (ip k).val + 1 := by
          rw [e, Fr.val_add_one (by omega)]
        rw [hval] at i1 i2
        have hwk := hword k (by omega) hne
        refine ⟨by omega, ?_, ?_⟩
        · intro v hv'
          rw [hwk] at hv'
          exact Option.some.inj hv'
        · intro v hv'
          rw [e1]
          exact i2 v hv'
  intro k hk
  exact back (len - 1 - k) k (by omega)

end Ins

end Verif
