import Verif.Spec.Piop
import Verif.Lemmas.MentionsLemmas

/-! The constraint system of a verifying key is closed. -/

namespace Verif.Plonk

open Spec Compress

/-- Like `Queried`, with selectors. -/
def QueriedS (cs : CS) : Expr → Prop
  | .const _ => True
  | .selector _ => True
  | .fixed c r => (c, r) ∈ cs.fixedQueries
  | .advice c r => (c, r) ∈ cs.adviceQueries
  | .instance_ c r => (c, r) ∈ cs.instanceQueries
  | .challenge i => i < cs.numChallenges
  | .neg a => QueriedS cs a
  | .sum a b => QueriedS cs a ∧ QueriedS cs b
  | .product a b => QueriedS cs a ∧ QueriedS cs b
  | .scaled a _ => QueriedS cs a

instance QueriedS.dec (cs : CS) : (e : Expr) → Decidable (QueriedS cs e)
  | .const _ => inferInstanceAs (Decidable True)
  | .selector _ => inferInstanceAs (Decidable True)
  | .fixed c r => inferInstanceAs (Decidable ((c, r) ∈ cs.fixedQueries))
  | .advice c r => inferInstanceAs (Decidable ((c, r) ∈ cs.adviceQueries))
  | .instance_ c r => inferInstanceAs (Decidable ((c, r) ∈ cs.instanceQueries))
  | .challenge i => inferInstanceAs (Decidable (i < cs.numChallenges))
  | .neg a => QueriedS.dec cs a
  | .sum a b => @instDecidableAnd _ _ (QueriedS.dec cs a) (QueriedS.dec cs b)
  | .product a b => @instDecidableAnd _ _ (QueriedS.dec cs a) (QueriedS.dec cs b)
  | .scaled a _ => QueriedS.dec cs a

instance ColQueried.dec (cs : CS) : (c : Col) → Decidable (ColQueried cs c)
  | .advice c => inferInstanceAs (Decidable ((c, 0) ∈ cs.adviceQueries))
  | .fixed c => inferInstanceAs (Decidable ((c, 0) ∈ cs.fixedQueries))
  | .instance_ c => inferInstanceAs (Decidable ((c, 0) ∈ cs.instanceQueries))

/-- Like `Closed`, with selectors. -/
structure ClosedS (cs : CS) : Prop where
  exprs : ∀ e ∈ Spec.expressions cs, QueriedS cs e
  widths : ∀ l ∈ cs.lookups, l.input.length = l.table.length
  permutation : ∀ c ∈ cs.permutation, ColQueried cs c
  distinct : cs.permutation.Nodup
  advice : ∀ q ∈ cs.adviceQueries, q.1 < cs.numAdvice
  fixed : ∀ q ∈ cs.fixedQueries, q.1 < cs.numFixed
  inst : ∀ q ∈ cs.instanceQueries, q.1 < cs.numInstance

theorem allocMany_queries (cs : CS) (k : Nat) : ∃ qs, cs.allocMany k =
    { cs with numFixed := cs.numFixed + k, fixedQueries := qs } ∧
    (∀ q, q ∈ qs ↔ q ∈ cs.fixedQueries ∨ ∃ i < k, q = (cs.numFixed + i, 0)) := by
  induction k with
  | zero => exact ⟨cs.fixedQueries, rfl, fun q => by simp⟩
  | succ k ih =>
    obtain ⟨qs, h, hq⟩ := ih
    refine ⟨CS.addQuery qs (cs.numFixed + k, 0), ?_, ?_⟩
    · show (cs.allocMany k).allocFixed = _
      rw [h]
      rfl
    · intro q
      have : q ∈ CS.addQuery qs (cs.numFixed + k, 0) ↔ q ∈ qs ∨ q = (cs.numFixed + k, 0) := by
        unfold CS.addQuery
        split
        · next hm =>
          constructor
          · exact fun h => .inl h
          · rintro (h | rfl)
            · exact h
            · exact hm
        · rw [List.mem_append, List.mem_singleton]
      rw [this, hq]
      constructor
      · rintro ((h | ⟨i, hi, rfl⟩) | rfl)
        · exact .inl h
        · exact .inr ⟨i, by omega, rfl⟩
        · exact .inr ⟨k, by omega, rfl⟩
      · rintro (h | ⟨i, hi, rfl⟩)
        · exact .inl (.inl h)
        · rcases Nat.lt_or_ge i k with hlt | hge
          · exact .inl (.inr ⟨i, hlt, rfl⟩)
          · exact .inr (by rw [show i = k by omega])

theorem queried_replacement {cs : CS} {c : Nat} (hc : (c, 0) ∈ cs.fixedQueries) (len j : Nat) :
    Queried cs (replacement (.fixed c 0) len j) := by
  unfold replacement
  have : ∀ (l : List Nat) (e : Expr), Queried cs e → Queried cs (l.foldl
      (fun e j' => if root j' ≠ root j then e * (.const (root j') - .fixed c 0) else e) e) := by
    intro l
    induction l with
    | nil => exact fun e h => h
    | cons a l ih =>
      intro e h
      refine ih _ ?_
      dsimp only
      split
      · exact ⟨h, trivial, hc⟩
      · exact h
  exact this _ _ hc

theorem compressed_closed {cs : CS} {simple : Nat → Bool} (hsane : Sane cs simple) (hs : ClosedS cs)
    {activations : List (List Bool)} {c : CS.Compressed} {cols : List (List Fr)}
    {as : List SelectorAssignment} (h : cs.compressSelectors activations = .ok (c, cols, as)) :
    Closed c.cs := by
  obtain ⟨degrees, combos, n, rs, -, -, -, rfl, hr, hcs⟩ := compression_facts hsane h
  obtain ⟨qs, hqs, hq⟩ := allocMany_queries cs (columnsOf n combos).length
  rw [hqs] at hcs
  have hfq : c.cs.fixedQueries = qs := by rw [hcs]; rfl
  have hrs : ∀ i, Queried c.cs (rs.getD i (.const 0)) := by
    intro i
    by_cases hi : i < cs.numSelectors
    · obtain ⟨k, j, d, co, act, hk, -, -, -, he, -⟩ := hr.entry i hi
      rw [he]
      have := (List.getElem?_eq_some_iff.1 hk).1
      refine queried_replacement ?_ _ _
      rw [hfq, hq]
      exact .inr ⟨k, by rw [columns_length]; exact this, rfl⟩
    · rw [List.getD_eq_getElem?_getD, List.getElem?_eq_none (by rw [hr.length]; omega)]
      trivial
  have hsub : ∀ e, QueriedS cs e → Queried c.cs (e.subst rs) := by
    intro e he
    induction e with
    | const _ => trivial
    | selector s => exact hrs _
    | fixed col r =>
      show (col, r) ∈ c.cs.fixedQueries
      rw [hfq, hq]
      exact .inl he
    | advice col r => show (col, r) ∈ c.cs.adviceQueries; rw [hcs]; exact he
    | instance_ col r => show (col, r) ∈ c.cs.instanceQueries; rw [hcs]; exact he
    | challenge i => show i < c.cs.numChallenges; rw [hcs]; exact he
    | neg a ih => exact ih he
    | sum a b iha ihb => exact ⟨iha he.1, ihb he.2⟩
    | product a b iha ihb => exact ⟨iha he.1, ihb he.2⟩
    | scaled a f ih => exact ih he
  have hmem := hs.exprs
  unfold Spec.expressions at hmem
  have hl : c.cs.lookups = cs.lookups.map fun l => ⟨l.input.map (Expr.subst rs), l.table.map (Expr.subst rs)⟩ := by
    rw [hcs]; rfl
  refine ⟨?_, ?_, ?_, ?_, ?_, ?_, ?_, ?_, ?_⟩
  · intro gate hg e he
    have hgg : c.cs.gates = cs.gates.map fun g => g.map (Expr.subst rs) := by rw [hcs]; rfl
    rw [hgg] at hg
    obtain ⟨g', hg', rfl⟩ := List.mem_map.1 hg
    obtain ⟨e', he', rfl⟩ := List.mem_map.1 he
    exact hsub _ (hmem _ (List.mem_append_left _ (List.mem_flatten.2 ⟨g', hg', he'⟩)))
  · intro l hlm e he
    rw [hl] at hlm
    obtain ⟨l', hl', rfl⟩ := List.mem_map.1 hlm
    obtain ⟨e', he', rfl⟩ := List.mem_map.1 he
    exact hsub _ (hmem _ (List.mem_append_right _ (List.mem_flatMap.2 ⟨l', hl', List.mem_append_left _ he'⟩)))
  · intro l hlm e he
    rw [hl] at hlm
    obtain ⟨l', hl', rfl⟩ := List.mem_map.1 hlm
    obtain ⟨e', he', rfl⟩ := List.mem_map.1 he
    exact hsub _ (hmem _ (List.mem_append_right _ (List.mem_flatMap.2 ⟨l', hl', List.mem_append_right _ he'⟩)))
  · intro l hlm
    rw [hl] at hlm
    obtain ⟨l', hl', rfl⟩ := List.mem_map.1 hlm
    simp [hs.widths l' hl']
  · intro col hcol
    have : c.cs.permutation = cs.permutation := by rw [hcs]; rfl
    rw [this] at hcol
    have := hs.permutation col hcol
    cases col with
    | advice i => show (i, 0) ∈ c.cs.adviceQueries; rw [hcs]; exact this
    | fixed i =>
      show (i, 0) ∈ c.cs.fixedQueries
      rw [hfq, hq]
      exact .inl this
    | instance_ i => show (i, 0) ∈ c.cs.instanceQueries; rw [hcs]; exact this
  · have : c.cs.permutation = cs.permutation := by rw [hcs]; rfl
    rw [this]
    exact hs.distinct
  · rw [hcs]; exact hs.advice
  · intro q hqm
    have hnf : c.cs.numFixed = cs.numFixed + (columnsOf n combos).length := by rw [hcs]; rfl
    rw [hfq, hq] at hqm
    rw [hnf]
    rcases hqm with h | ⟨i, hi, rfl⟩
    · have := hs.fixed q h; omega
    · dsimp only; omega
  · rw [hcs]; exact hs.inst

theorem mainCS_closed : ClosedS mainCS :=
  ⟨by decide +kernel, by decide +kernel, by decide +kernel, by decide +kernel, by decide +kernel,
    by decide +kernel, by decide +kernel⟩

end Verif.Plonk
