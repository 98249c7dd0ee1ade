import Verif.Lemmas.KeyLemmas
import Verif.Lemmas.Rules
import Verif.Props.Common

/-! Properties C32 and C37: selector compression, and its re-creation by the verifier. -/

namespace Verif.Props

open Spec Compress

/-- C32. Every selector gets exactly one replacement. In any row of any grid in which the columns
made by the combination hold their values, the replacement of a selector is nonzero exactly if the
selector is enabled; for a selector without gates (degree 0) it is 1 or 0. A gate of the selector's
degree with the selector replaced stays within the limit. -/
theorem C32_selectors (sels : List SelectorDescription) (maxDegree n : Nat) (alloc : Nat → Expr)
    (hn : ∀ s ∈ sels, s.activations.length = n) (hd : ∀ s ∈ sels, s.maxDegree ≤ maxDegree)
    (hP : maxDegree < P) (hq : ∀ i, (alloc i).degree ≤ 1) :
    ∃ cols as, process sels maxDegree alloc = .ok (cols, as) ∧
      (as.map (·.selector)).Perm (sels.map (·.selector)) ∧
      ∀ a ∈ as, ∃ s ∈ sels, s.selector = a.selector ∧
        (s.maxDegree ≠ 0 → s.maxDegree - 1 + a.expression.degree ≤ maxDegree) ∧
        ∃ col, cols[a.combinationIndex]? = some col ∧ col.length = n ∧
          ∀ N g row, row < n → some ((alloc a.combinationIndex).eval N g row) = col[row]? →
            (a.expression.eval N g row ≠ 0 ↔ s.activations[row]? = some true) ∧
            (s.maxDegree = 0 →
              a.expression.eval N g row = if s.activations[row]? = some true then 1 else 0) := by
  obtain ⟨combos, hc, hp⟩ := process_spec (alloc := alloc) hn hd
  refine ⟨_, _, hp, ?_, ?_⟩
  · rw [assignmentsOf_selectors]
    exact hc.perm.map _
  · intro a ha
    obtain ⟨k, c, i, s, hk, hi, rfl⟩ := mem_assignmentsOf.1 ha
    have hck := List.mem_of_getElem? hk
    have hsc := List.mem_of_getElem? hi
    refine ⟨s, hc.perm.mem_iff.1 (List.mem_flatten.2 ⟨c, hck, hsc⟩), rfl, ?_, column n c, ?_, ?_, ?_⟩
    · intro h0
      have h1 := replacement_degree (alloc k) (hq k) i c.length (List.getElem?_eq_some_iff.1 hi).1
      rcases (hc.each c hck).2 with ⟨t, rfl, ht⟩ | ⟨hg, -⟩
      · rw [List.mem_singleton] at hsc
        rw [← hsc] at ht
        exact absurd ht h0
      · have := hg.degree s hsc
        show s.maxDegree - 1 + (replacement (alloc k) c.length i).degree ≤ maxDegree
        omega
    · unfold columnsOf; rw [List.getElem?_map, hk]; rfl
    · exact column_length n c fun t ht =>
        hn t (hc.perm.mem_iff.1 (List.mem_flatten.2 ⟨c, hck, ht⟩))
    · intro N g row hrow hv
      exact assignment_value hP hc hn hk hi hrow hv

/-- Three selectors, two of them never enabled together: they share a column. -/
example : process [⟨0, [true, false, false], 2⟩, ⟨1, [false, false, true], 2⟩,
      ⟨2, [true, true, false], 0⟩] 3 (fun i => .fixed i 0) =
    .ok ([[1, 1, 0], [1, 0, 2]],
      [⟨2, 0, .fixed 0 0⟩,
       ⟨0, 1, .fixed 1 0 * (.const 2 - .fixed 1 0)⟩,
       ⟨1, 1, .fixed 1 0 * (.const 1 - .fixed 1 0)⟩]) := by
  decide +kernel

/-- C32. Compression of the selectors of a constraint system never panics: neither the operators on
expressions nor the assertions fail. -/
theorem C32_no_panic (cs : CS) (simple : Nat → Bool) (hsane : Sane cs simple)
    (activations : List (List Bool)) (hl : activations.length = cs.numSelectors) (n : Nat)
    (hn : ∀ act ∈ activations, act.length = n) :
    ∃ c cols as, cs.compressSelectors activations = .ok (c, cols, as) ∧
      ∀ col ∈ cols, col.length = n := by
  obtain ⟨⟨c, cols, as⟩, h⟩ := compress_ok hsane hl hn
  refine ⟨c, cols, as, h, ?_⟩
  obtain ⟨degrees, combos, n', rs, -, hn', hc, rfl, -, -⟩ := compression_facts hsane h
  intro col hcol
  unfold columnsOf at hcol
  obtain ⟨cm, hcm, rfl⟩ := List.mem_map.1 hcol
  have hmem : ∀ t ∈ cm, t ∈ describe activations degrees := fun t ht =>
    hc.perm.mem_iff.1 (List.mem_flatten.2 ⟨cm, hcm, ht⟩)
  have hlen := column_length n' cm fun t ht => hn' t (hmem t ht)
  rw [hlen]
  obtain ⟨t, ht⟩ := List.exists_mem_of_ne_nil cm (hc.each cm hcm).1
  have h1 := hn' t (hmem t ht)
  have h2 := hn t.activations (List.mem_of_getElem? (mem_describe.1 (hmem t ht)).1)
  omega

/-- C32. The constraint system with the selectors replaced by the new fixed columns is satisfied by
exactly the same columns. -/
theorem C32_same_meaning (cs : CS) (simple : Nat → Bool) (hsane : Sane cs simple)
    (hP : cs.degree < P) (activations : List (List Bool)) (n : Nat)
    (hn : ∀ act ∈ activations, act.length = n) (c : CS.Compressed) (cols : List (List Fr))
    (as : List SelectorAssignment) (h : cs.compressSelectors activations = .ok (c, cols, as))
    (g g' : Grid) (hg : Replaced cs n activations cols g g')
    (copies : List ((Col × Nat) × (Col × Nat)))
    (hcopies : ∀ p ∈ copies, ∀ q, q = p.1 ∨ q = p.2 → ∀ i, q.1 = .fixed i → i < cs.numFixed) :
    Satisfied cs n g copies ↔ Satisfied c.cs n g' copies := by
  refine compressed_satisfied hsane hP h hn hg copies ?_
  have key : ∀ q : Col × Nat, (∀ i, q.1 = .fixed i → i < cs.numFixed) → g'.cell q = g.cell q := by
    rintro ⟨col, row⟩ hq
    cases col with
    | advice i => show g'.advice i row = _; rw [hg.advice]; rfl
    | instance_ i => show g'.instance_ i row = _; rw [hg.instance_]; rfl
    | fixed i => show g'.fixed i row = _; rw [hg.fixed i (hq i rfl)]; rfl
  intro p hp
  exact ⟨key p.1 (hcopies p hp p.1 (.inl rfl)), key p.2 (hcopies p hp p.2 (.inr rfl))⟩

/-- C32. Compression does not change the degree of the constraint system (which fixes the size of
the extended domain). -/
theorem C32_degree (cs : CS) (simple : Nat → Bool) (hsane : Sane cs simple)
    (activations : List (List Bool)) (c : CS.Compressed) (cols : List (List Fr))
    (as : List SelectorAssignment) (h : cs.compressSelectors activations = .ok (c, cols, as)) :
    c.cs.degree = cs.degree :=
  compressed_degree hsane h

/-- C32 for the brainfuck circuit: for every table of enabled selectors compression succeeds, keeps
the degree 11, and the compressed circuit means the same. -/
theorem C32_circuit (activations : List (List Bool)) (hl : activations.length = 15) (n : Nat)
    (hn : ∀ act ∈ activations, act.length = n) :
    ∃ c cols as, mainCS.compressSelectors activations = .ok (c, cols, as) ∧
      c.cs.degree = 11 ∧
      ∀ g, (∀ (i : Nat) (act : List Bool), activations[i]? = some act → ∀ row, row < n →
          (g.selector i row = true ↔ act[row]? = some true)) →
        (∃ g', Replaced mainCS n activations cols g g') ∧
        ∀ g', Replaced mainCS n activations cols g g' →
          ∀ copies : List ((Col × Nat) × (Col × Nat)),
            (∀ p ∈ copies, ∀ q, q = p.1 ∨ q = p.2 → ∀ i, q.1 ≠ .fixed i) →
            (Satisfied mainCS n g copies ↔ Satisfied c.cs n g' copies) := by
  have hns : mainCS.numSelectors = 15 := by decide +kernel
  have hdeg : mainCS.degree = 11 := by decide +kernel
  obtain ⟨c, cols, as, h, hcols⟩ := C32_no_panic mainCS _ mainCS_sane activations
    (by rw [hl, hns]) n hn
  refine ⟨c, cols, as, h, by rw [C32_degree _ _ mainCS_sane _ _ _ _ h, hdeg], ?_⟩
  intro g hsel
  constructor
  · refine ⟨{ g with fixed := fun i row => if i < mainCS.numFixed then g.fixed i row else
      ((cols.getD (i - mainCS.numFixed) []).getD row 0) }, rfl, rfl, rfl, ?_, hsel, ?_⟩
    · intro i hi
      funext row
      show (if _ then _ else _) = _
      rw [if_pos hi]
    · intro i col hcol row hrow
      show some (if _ then _ else _) = _
      have hlen : col.length = n := hcols col (List.mem_of_getElem? hcol)
      rw [if_neg (by omega), Nat.add_sub_cancel_left, List.getD_eq_getElem?_getD,
        List.getD_eq_getElem?_getD, hcol]
      simp only [Option.getD_some]
      rw [List.getElem?_eq_getElem (by omega)]
      rfl
  · intro g' hg copies hcopies
    refine C32_same_meaning mainCS _ mainCS_sane ?_ activations n hn c cols as h g g' hg copies ?_
    · rw [hdeg]; decide
    · intro p hp q hq i hi
      exact absurd hi (hcopies p hp q hq i)

/-- C37. Reading a verifying key re-creates, from the selector assignments alone, the constraint
system (columns, queries, gates, lookups) and the selector map that key generation got by
compression. -/
theorem C37_recreate (cs : CS) (activations : List (List Bool)) (c : CS.Compressed)
    (cols : List (List Fr)) (as : List SelectorAssignment)
    (h : cs.compressSelectors activations = .ok (c, cols, as)) :
    cs.recreate as = .ok c :=
  recreate_of_compression (compression_of _ _ _ _ _ h)

/-- C37 for the brainfuck circuit: for every table of enabled selectors. -/
theorem C37_circuit (activations : List (List Bool)) (hl : activations.length = 15) (n : Nat)
    (hn : ∀ act ∈ activations, act.length = n) :
    ∃ c cols as, mainCS.compressSelectors activations = .ok (c, cols, as) ∧
      mainCS.recreate as = .ok c := by
  have hns : mainCS.numSelectors = 15 := by decide +kernel
  obtain ⟨c, cols, as, h, -⟩ := C32_no_panic mainCS _ mainCS_sane activations
    (by rw [hl, hns]) n hn
  exact ⟨c, cols, as, h, C37_recreate _ _ _ _ _ h⟩

/-- The brainfuck circuit with each selector enabled in one of 15 rows: five new columns. -/
example : ((mainCS.compressSelectors ((List.range 15).map fun i => (List.range 15).map (· == i))).map
    fun r => (r.1.cs.numFixed, r.1.selectorMap, r.2.1.length)) =
      .ok (6, [1, 2, 3, 2, 2, 4, 2, 2, 2, 2, 2, 4, 4, 5, 5], 5) := by
  decide +kernel

#print axioms C32_selectors
#print axioms C32_no_panic
#print axioms C32_same_meaning
#print axioms C32_degree
#print axioms C32_circuit
#print axioms C37_recreate
#print axioms C37_circuit

end Verif.Props
