import Verif.Model.Fr

/-! Lookups, independent of the algorithm. -/

namespace Verif.Spec

/-- The columns `a` and `s` show that every entry of `input` is an entry of `table`: they are
rearrangements, and in every row `a` agrees with `s` or with the row before. -/
structure ShowsLookup (input table a s : List Fr) : Prop where
  input : a.Perm input
  table : s.Perm table
  first : a[0]? = s[0]?
  rows : ∀ i, i + 1 < a.length → a[i + 1]? = s[i + 1]? ∨ a[i + 1]? = a[i]?

end Verif.Spec
