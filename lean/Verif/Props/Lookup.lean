import Verif.Lemmas.LookupLemmas

/-! Property C36: lookups. -/

namespace Verif.Props

open Spec Lookup

/-- C36, the prover. If every input of the usable rows is in the table, the columns the prover
builds show the lookup (and end with the random values); it does not panic. -/
theorem C36_complete (n usable : Nat) (hu : usable ≤ n) (input table blindA blindS : List Fr)
    (hi : input.length = n) (ht : table.length = n) (hA : blindA.length = n - usable)
    (hS : blindS.length = n - usable)
    (h : ∀ x ∈ input.take usable, x ∈ table.take usable) :
    ∃ a s, permutePair n usable input table blindA blindS = .ok (some (a ++ blindA, s ++ blindS)) ∧
      ShowsLookup (input.take usable) (table.take usable) a s :=
  (permutePair_ok hu hi ht hA hS).1 h

/-- C36, the prover. Otherwise it returns an error. -/
theorem C36_rejects (n usable : Nat) (hu : usable ≤ n) (input table blindA blindS : List Fr)
    (hi : input.length = n) (ht : table.length = n) (hA : blindA.length = n - usable)
    (hS : blindS.length = n - usable)
    (h : ∃ x ∈ input.take usable, x ∉ table.take usable) :
    permutePair n usable input table blindA blindS = .ok none :=
  (permutePair_ok hu hi ht hA hS).2 h

/-- C36, conversely: columns that show a lookup force every input to be in the table. -/
theorem C36_force (input table a s : List Fr) (h : ShowsLookup input table a s) :
    ∀ x ∈ input, x ∈ table :=
  shows_mem h

/-- Repeated inputs, a table with repeated and unused entries, two blinding rows. -/
example : permutePair 6 4 [3, 1, 3, 3, 8, 8] [1, 2, 1, 3, 9, 9] [5, 6] [7, 7] =
    .ok (some ([1, 3, 3, 3, 5, 6], [1, 3, 2, 1, 7, 7])) := by
  unfold permutePair
  simp only [show List.take 4 [3, 1, 3, 3, 8, 8] = [(3 : Fr), 1, 3, 3] from rfl,
    sort_eq (l := [(3 : Fr), 1, 3, 3]) (l' := [1, 3, 3, 3]) (by decide +kernel) (by decide +kernel)]
  decide +kernel

/-- An input that is not in the usable part of the table. -/
example : permutePair 6 4 [3, 1, 9, 3, 8, 8] [1, 2, 1, 3, 9, 9] [5, 6] [7, 7] = .ok none := by
  unfold permutePair
  simp only [show List.take 4 [3, 1, 9, 3, 8, 8] = [(3 : Fr), 1, 9, 3] from rfl,
    sort_eq (l := [(3 : Fr), 1, 9, 3]) (l' := [1, 3, 3, 9]) (by decide +kernel) (by decide +kernel)]
  decide +kernel

#print axioms C36_complete
#print axioms C36_rejects
#print axioms C36_force

end Verif.Props
