import Verif.Lemmas.VkLemmas
import Verif.Lemmas.CompressSound
import Verif.Model.Circuit

/-! Keys of the brainfuck circuit (helper lemmas). -/

namespace Verif

open Spec Compress

/-- The brainfuck circuit: only the selector of the range check is complex. -/
theorem mainCS_sane : Sane mainCS (fun i => decide (i ≠ 0)) := by
  refine ⟨?_, ?_, ?_, ?_⟩ <;> decide +kernel

theorem assignments_inRange {activations : List (List Bool)} {c : CS.Compressed}
    {cols : List (List Fr)} {as : List SelectorAssignment}
    (h : mainCS.compressSelectors activations = .ok (c, cols, as)) :
    c.cs.numFixed ≤ 16 ∧ as.length = 15 ∧ c.cs.numFixed = 1 + cols.length ∧
      ∀ a ∈ as, (WAssignment.ofAssignment c.cs a).InRange := by
  have hns : mainCS.numSelectors = 15 := by decide +kernel
  have hnf : mainCS.numFixed = 1 := by decide +kernel
  have hfq : mainCS.fixedQueries.length ≤ 1 := by decide +kernel
  obtain ⟨degrees, combos, n, rs, h0, h1, hn, hc, rfl, rfl, h4, h5, h6⟩ :=
    (compression_of _ _ _ _ _ h).run
  have hsl : (describe activations degrees).length ≤ 15 := by
    unfold describe
    simp only [List.length_map, List.length_zipIdx, List.length_zip]
    omega
  have hflat := hc.perm.length_eq
  have hcl : combos.length ≤ combos.flatten.length := by
    have : ∀ l : List (List SelectorDescription), (∀ c ∈ l, c ≠ []) → l.length ≤ l.flatten.length := by
      intro l
      induction l with
      | nil => simp
      | cons x l ih =>
        intro hx
        have h1 := ih (fun c hc => hx c (List.mem_cons_of_mem _ hc))
        have h2 := List.length_pos_iff.2 (hx x (by simp))
        simp only [List.length_cons, List.flatten_cons, List.length_append]
        omega
    exact this combos fun c hcm => (hc.each c hcm).1
  have hcs := (substitute_eq h6).1
  have hq : ∀ k, (mainCS.allocMany k).fixedQueries.length ≤ 1 + k := by
    intro k
    induction k with
    | zero => exact hfq
    | succ k ih =>
      show (CS.addQuery _ _).length ≤ _
      unfold CS.addQuery
      split_ifs
      · omega
      · rw [List.length_append]
        simp only [List.length_singleton]
        omega
  have hcql : c.cs.fixedQueries.length ≤ 16 := by
    rw [hcs]
    show (mainCS.allocMany _).fixedQueries.length ≤ _
    have := hq (columnsOf n combos).length
    rw [columns_length] at this ⊢
    omega
  have hcnf : c.cs.numFixed = 1 + (columnsOf n combos).length := by
    rw [hcs]
    show (mainCS.allocMany _).numFixed = _
    rw [allocMany_numFixed, hnf]
  have hdl : degrees.length = activations.length := by
    obtain ⟨d', e1, e2, -⟩ := degrees_of mainCS_sane h0
    rw [h1] at e1
    cases e1
    exact e2
  have hasl : (assignmentsOf (fun i => .fixed (mainCS.numFixed + i) 0) 0 combos).length = 15 := by
    have e := congrArg List.length (assignmentsOf_selectors
      (alloc := fun i => .fixed (mainCS.numFixed + i) 0) (idx := 0) (combos := combos))
    rw [List.length_map, List.length_map, hflat] at e
    rw [e]
    unfold describe
    simp only [List.length_map, List.length_zipIdx, List.length_zip]
    omega
  refine ⟨by rw [hcnf, columns_length]; omega, hasl, hcnf, ?_⟩
  intro a ha
  obtain ⟨k, cm, i, s, hk, hi, rfl⟩ := mem_assignmentsOf.1 ha
  have hkl := (List.getElem?_eq_some_iff.1 hk).1
  have hs : s ∈ describe activations degrees := hc.perm.mem_iff.1
    (List.mem_flatten.2 ⟨cm, List.mem_of_getElem? hk, List.mem_of_getElem? hi⟩)
  have hsel : s.selector < 15 := by
    have := (List.getElem?_eq_some_iff.1 (mem_describe.1 hs).1).1
    omega
  refine ⟨by show s.selector < _; omega, by show k < _; omega, ?_⟩
  refine replacement_inRange _ _ ?_ _ _
  have hidx : c.cs.fixedQueries.idxOf (mainCS.numFixed + k, 0) ≤ c.cs.fixedQueries.length :=
    List.idxOf_le_length
  refine ⟨by omega, by omega, by norm_num, by norm_num⟩

end Verif
