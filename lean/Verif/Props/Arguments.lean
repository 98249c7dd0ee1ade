import Verif.Lemmas.AcceptFacts
import Verif.Spec.Repaired

/-! Properties C24 and C25: what the running products and running sums prove. -/

namespace Verif.Props

open BF Spec

/-- The four challenges of a product as one point. -/
theorem four_distinct : Distinct4 (0 : Fin 4) 1 2 3 := by
  constructor <;> decide

/-- C24, the columns: in an accepted assignment the running products, multiplied by their starting
values, of the memory table and of the memory accesses of the processor table agree; so do those of
the repeated rows of the instruction table and of the fetches of the processor table. -/
theorem C24_columns (n : Nat) (mx : Matrix) (code input : List Fr) (g : Grid)
    (h : Accepts n mx (publicInputs code input) g) :
    g.advice mainConfig.m.prp 0 * tableProduct (g.challenge 0) (g.challenge 1) (g.challenge 2)
        (g.challenge 3) (memoryRows mx g) =
      g.advice mainConfig.p.memPrp 0 * tableProduct (g.challenge 0) (g.challenge 1) (g.challenge 2)
        (g.challenge 3) (accessRows mx g) ∧
    (0 < mx.instruction.length →
      g.advice mainConfig.i.prp 0 * tableProduct (g.challenge 4) (g.challenge 5) (g.challenge 6)
          (g.challenge 7) (repeatedRows mx g) =
        g.advice mainConfig.p.instPrp 0 * tableProduct (g.challenge 4) (g.challenge 5)
          (g.challenge 6) (g.challenge 7) (fetchRows mx g)) := by
  have F := accepts_facts h
  constructor
  · have h1 := F.memProd
    rw [← F.copyMem, F.procMemProd] at h1
    exact h1.symm
  · intro hI
    have h1 := F.insProd hI
    rw [← F.copyIns, F.procInsProd] at h1
    exact h1.symm

/-- C24, the argument: products of two tables from the same nonzero start agree for all challenges
exactly when the tables are rearrangements of each other. (Tables of at least `P` rows, more than
`2^253`, are left out.) -/
theorem C24_iff (T T' : List (Fr × Fr × Fr)) (start : Fr) (hs : start ≠ 0) (hT : T.length < P)
    (hT' : T'.length < P) :
    (∀ alpha d e f, start * tableProduct alpha d e f T = start * tableProduct alpha d e f T') ↔
      T.Perm T' := by
  constructor
  · intro h
    by_contra hn
    obtain ⟨x, hx⟩ := exists_good (m := max T.length T'.length)
      (product_bad four_distinct (le_max_left _ _) (le_max_right _ _) hn) (max_lt hT hT')
    exact hx (mul_left_cancel₀ hs (h (x 0) (x 1) (x 2) (x 3)))
  · intro h alpha d e f
    rw [product_perm h]

/-- C24, the error: tables that are not rearrangements have equal products for at most one in
`P / m` of all challenges, `m` the length of the longer table. -/
theorem C24_error (T T' : List (Fr × Fr × Fr)) (start : Fr) (hs : start ≠ 0) (h : ¬ T.Perm T') :
    {x : Fin 4 → Fr | start * tableProduct (x 0) (x 1) (x 2) (x 3) T =
      start * tableProduct (x 0) (x 1) (x 2) (x 3) T'}.ncard * P ≤
        max T.length T'.length * P ^ 4 := by
  have := product_bad four_distinct (le_max_left T.length T'.length)
    (le_max_right T.length T'.length) h
  have e : {x : Fin 4 → Fr | start * tableProduct (x 0) (x 1) (x 2) (x 3) T =
      start * tableProduct (x 0) (x 1) (x 2) (x 3) T'} =
      {x : Fin 4 → Fr | tableProduct (x 0) (x 1) (x 2) (x 3) T =
        tableProduct (x 0) (x 1) (x 2) (x 3) T'} := by
    ext x
    rw [Set.mem_ofPred_eq, Set.mem_ofPred_eq]
    exact mul_right_inj' hs
  rw [e]; exact this

/-- C24, the error for fixed weights: if the tables compressed with the weights are not
rearrangements of each other, at most `m` values of the first challenge are bad. -/
theorem C24_error_fixed_weights (T T' : List (Fr × Fr × Fr)) (d e f : Fr)
    (h : ¬ (T.map fun t => d * t.1 + e * t.2.1 + f * t.2.2).Perm
      (T'.map fun t => d * t.1 + e * t.2.1 + f * t.2.2)) :
    {alpha : Fr | tableProduct alpha d e f T = tableProduct alpha d e f T'}.ncard ≤
      max T.length T'.length :=
  product_bad_alpha (le_max_left _ _) (le_max_right _ _) d e f h

/-- The start must not be zero: from 0 all products agree. -/
example : ∀ alpha d e f, (0 : Fr) * tableProduct alpha d e f [(1, 2, 3)] =
    0 * tableProduct alpha d e f [(4, 5, 6)] := by intros; simp

/-- Rearranged tables, and tables that are not. -/
example : ([(1, 2, 3), (4, 5, 6)] : List (Fr × Fr × Fr)).Perm [(4, 5, 6), (1, 2, 3)] ∧
    ¬ ([(1, 2, 3), (1, 2, 3)] : List (Fr × Fr × Fr)).Perm [(1, 2, 3), (4, 5, 6)] := by
  constructor <;> decide +kernel

/-! ### Running sums -/

/-- C25, the columns: in an accepted assignment the running sums of the program, input and output
tables are the sums over their columns when they start from 0, and the program and input columns
hold the public program and input. -/
theorem C25_columns (n : Nat) (mx : Matrix) (code input : List Fr) (g : Grid)
    (h : Accepts n mx (publicInputs code input) g) (hc : mx.program.length = code.length)
    (hl : mx.input.length = input.length) :
    (g.advice mainConfig.program.codeRs 0 = 0 →
      g.advice mainConfig.program.codeRs mx.program.length = runningSum (g.challenge 8) code) ∧
    (g.advice mainConfig.input.rs 0 = 0 →
      g.advice mainConfig.input.rs mx.input.length = runningSum (g.challenge 10) input) ∧
    (g.advice mainConfig.output.rs 0 = 0 →
      g.advice mainConfig.output.rs mx.output.length =
        runningSum (g.challenge 9) (outputOf g mx.output.length)) := by
  have F := accepts_facts h
  have hcol : ∀ (c : Nat) (l : List Fr), (∀ i, i < l.length → g.advice c i = l.getD i 0) →
      column g c l.length = l := by
    intro c l hl
    unfold column
    apply List.ext_getElem
    · simp
    · intro i h1 h2
      rw [List.getElem_map, List.getElem_range, hl i h2, List.getD_eq_getElem?_getD,
        List.getElem?_eq_getElem h2]
      rfl
  refine ⟨fun h0 => ?_, fun h0 => ?_, fun h0 => ?_⟩
  · have := F.progSum
    rw [show g.advice 27 0 = 0 from h0, zero_mul, zero_add, hc,
      hcol 25 code (by rw [← hc]; exact F.progCells), ← hc] at this
    exact this
  · have := F.inSum
    rw [show g.advice 24 0 = 0 from h0, zero_mul, zero_add, hl,
      hcol 22 input (by rw [← hl]; exact F.inpCells), ← hl] at this
    exact this
  · have := F.outSum
    rw [show g.advice 21 0 = 0 from h0, zero_mul, zero_add] at this
    exact this

/-- C25, the argument: sums over equally long columns agree for all challenges exactly when the
columns are equal. -/
theorem C25_iff (l l' : List Fr) (hl : l.length = l'.length) (hP : l.length < P) :
    (∀ gamma, runningSum gamma l = runningSum gamma l') ↔ l = l' := by
  constructor
  · intro h
    by_contra hn
    have hs : ¬ SameUpToLeadingZeros l l' := by
      rintro ⟨k, e | e⟩
      · have hk : k = 0 := by
          have := congrArg List.length e
          rw [List.length_append, List.length_replicate] at this
          omega
        subst hk
        exact hn (by simpa using e)
      · have hk : k = 0 := by
          have := congrArg List.length e
          rw [List.length_append, List.length_replicate] at this
          omega
        subst hk
        exact hn (by simpa using e.symm)
    have := sum_bad (le_refl l.length) (le_of_eq hl.symm) hs
    have hu : {gamma : Fr | runningSum gamma l = runningSum gamma l'} = Set.univ :=
      Set.eq_univ_of_forall h
    rw [hu, Set.ncard_univ, card_Fr] at this
    omega
  · rintro rfl _; rfl

/-- C25, the error: unequal columns of the same length agree for fewer challenges than their
length. -/
theorem C25_error (l l' : List Fr) (hl : l.length = l'.length) (h : l ≠ l') :
    {gamma : Fr | runningSum gamma l = runningSum gamma l'}.ncard < l.length := by
  have hpos : 0 < l.length := by
    rcases Nat.eq_zero_or_pos l.length with h0 | h0
    · have e1 : l = [] := List.length_eq_zero_iff.1 h0
      have e2 : l' = [] := List.length_eq_zero_iff.1 (by omega)
      exact absurd (by rw [e1, e2]) h
    · exact h0
  have hs : ¬ SameUpToLeadingZeros l l' := by
    rintro ⟨k, e | e⟩ <;>
    · have hk : k = 0 := by
        have := congrArg List.length e
        rw [List.length_append, List.length_replicate] at this
        omega
      subst hk
      first
        | exact h (by simpa using e)
        | exact h (by simpa using e.symm)
  have := sum_bad (le_refl l.length) (le_of_eq hl.symm) hs
  omega

/-- C25, different lengths: sums agree for all challenges exactly when the columns are equal up to
zeros in front. -/
theorem C25_leading_zeros (l l' : List Fr) (hP : l.length < P) (hP' : l'.length < P) :
    (∀ gamma, runningSum gamma l = runningSum gamma l') ↔ SameUpToLeadingZeros l l' := by
  constructor
  · intro h
    by_contra hn
    have := sum_bad (le_max_left l.length l'.length) (le_max_right _ _) hn
    have hu : {gamma : Fr | runningSum gamma l = runningSum gamma l'} = Set.univ :=
      Set.eq_univ_of_forall h
    rw [hu, Set.ncard_univ, card_Fr] at this
    have hP0 : 0 < P := (Fact.out : P.Prime).pos
    have := max_lt hP hP'
    omega
  · intro h gamma; exact runningSum_same h gamma

example : ([1, 2] : List Fr) ≠ [2, 1] ∧ SameUpToLeadingZeros [0, 0, 7] [7] ∧
    ¬ SameUpToLeadingZeros [7, 0] [7] := by
  refine ⟨by decide +kernel, ⟨2, Or.inl rfl⟩, ?_⟩
  rintro ⟨k, e | e⟩
  · have hk : k = 1 := by have := congrArg List.length e; simp at this; omega
    subst hk
    exact absurd e (by decide +kernel)
  · have := congrArg List.length e
    simp at this

#print axioms C24_columns
#print axioms C24_iff
#print axioms C24_error
#print axioms C24_error_fixed_weights
#print axioms C25_columns
#print axioms C25_iff
#print axioms C25_error
#print axioms C25_leading_zeros

end Verif.Props
