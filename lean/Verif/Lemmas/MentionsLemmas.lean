import Verif.Spec.Evaluation
import Verif.Lemmas.KeyLemmas

/-! The expressions of the circuit after selectors have been compressed. -/

namespace Verif

open Spec Compress

/-- Like `Mentions`, with selectors. -/
def MentionsS (nf na ni nc : Nat) : Expr → Prop
  | .const _ => True
  | .selector _ => True
  | .fixed c _ => c < nf
  | .advice c _ => c < na
  | .instance_ c _ => c < ni
  | .challenge i => i < nc
  | .neg a => MentionsS nf na ni nc a
  | .sum a b => MentionsS nf na ni nc a ∧ MentionsS nf na ni nc b
  | .product a b => MentionsS nf na ni nc a ∧ MentionsS nf na ni nc b
  | .scaled a _ => MentionsS nf na ni nc a

instance MentionsS.dec (nf na ni nc : Nat) : (e : Expr) → Decidable (MentionsS nf na ni nc e)
  | .const _ => inferInstanceAs (Decidable True)
  | .selector _ => inferInstanceAs (Decidable True)
  | .fixed c _ => inferInstanceAs (Decidable (c < nf))
  | .advice c _ => inferInstanceAs (Decidable (c < na))
  | .instance_ c _ => inferInstanceAs (Decidable (c < ni))
  | .challenge i => inferInstanceAs (Decidable (i < nc))
  | .neg a => MentionsS.dec nf na ni nc a
  | .sum a b => @instDecidableAnd _ _ (MentionsS.dec nf na ni nc a) (MentionsS.dec nf na ni nc b)
  | .product a b => @instDecidableAnd _ _ (MentionsS.dec nf na ni nc a) (MentionsS.dec nf na ni nc b)
  | .scaled a _ => MentionsS.dec nf na ni nc a

theorem mentions_subst {nf nf' na ni nc : Nat} (hnf : nf ≤ nf') {rs : List Expr}
    (hrs : ∀ i, Mentions nf' na ni nc (rs.getD i (.const 0))) (e : Expr)
    (h : MentionsS nf na ni nc e) : Mentions nf' na ni nc (e.subst rs) := by
  induction e with
  | const _ => trivial
  | selector s => exact hrs _
  | fixed c _ => exact Nat.lt_of_lt_of_le h hnf
  | advice c _ => exact h
  | instance_ c _ => exact h
  | challenge i => exact h
  | neg a ih => exact ih h
  | sum a b iha ihb => exact ⟨iha h.1, ihb h.2⟩
  | product a b iha ihb => exact ⟨iha h.1, ihb h.2⟩
  | scaled a f ih => exact ih h

theorem mentions_replacement {nf na ni nc c : Nat} (hc : c < nf) (len j : Nat) :
    Mentions nf na ni nc (replacement (.fixed c 0) len j) := by
  unfold replacement
  have : ∀ (l : List Nat) (e : Expr), Mentions nf na ni nc e → Mentions nf na ni nc (l.foldl
      (fun e j' => if root j' ≠ root j then e * (.const (root j') - .fixed c 0) else e) e) := by
    intro l
    induction l with
    | nil => exact fun e h => h
    | cons a l ih =>
      intro e h
      refine ih _ ?_
      dsimp only
      split
      · exact ⟨h, trivial, hc⟩
      · exact h
  exact this _ _ hc

/-- After compression all expressions only mention what exists. -/
theorem compressed_mentions {cs : CS} {simple : Nat → Bool} (hsane : Sane cs simple)
    {na ni nc : Nat} (hm : ∀ e ∈ expressions cs, MentionsS cs.numFixed na ni nc e)
    {activations : List (List Bool)} {c : CS.Compressed} {cols : List (List Fr)}
    {as : List SelectorAssignment} (h : cs.compressSelectors activations = .ok (c, cols, as)) :
    ∀ e ∈ expressions c.cs, Mentions c.cs.numFixed na ni nc e := by
  obtain ⟨degrees, combos, n, rs, -, -, -, rfl, hr, hcs⟩ := compression_facts hsane h
  obtain ⟨qs, hqs⟩ := allocMany_same cs (columnsOf n combos).length
  rw [hqs] at hcs
  have hnf : c.cs.numFixed = cs.numFixed + combos.length := by
    rw [hcs, ← columns_length (n := n)]
    rfl
  have hrs : ∀ i, Mentions (cs.numFixed + combos.length) na ni nc (rs.getD i (.const 0)) := by
    intro i
    by_cases hi : i < cs.numSelectors
    · obtain ⟨k, j, d, c, act, hk, -, -, -, he, -⟩ := hr.entry i hi
      rw [he]
      have := (List.getElem?_eq_some_iff.1 hk).1
      exact mentions_replacement (by omega) _ _
    · rw [List.getD_eq_getElem?_getD, List.getElem?_eq_none (by rw [hr.length]; omega)]
      trivial
  rw [hnf]
  intro e he
  unfold expressions at he hm
  rw [hcs] at he
  simp only [CS.replaced] at he
  rcases List.mem_append.1 he with he | he
  · obtain ⟨g, hg, he⟩ := List.mem_flatten.1 he
    obtain ⟨g', hg', rfl⟩ := List.mem_map.1 hg
    obtain ⟨e', he', rfl⟩ := List.mem_map.1 he
    exact mentions_subst (by omega) hrs _ (hm _ (List.mem_append_left _
      (List.mem_flatten.2 ⟨g', hg', he'⟩)))
  · obtain ⟨l, hl, he⟩ := List.mem_flatMap.1 he
    obtain ⟨l', hl', rfl⟩ := List.mem_map.1 hl
    simp only [← List.map_append] at he
    obtain ⟨e', he', rfl⟩ := List.mem_map.1 he
    exact mentions_subst (by omega) hrs _ (hm _ (List.mem_append_right _
      (List.mem_flatMap.2 ⟨l', hl', he'⟩)))

theorem mainCS_mentions : ∀ e ∈ expressions mainCS, MentionsS mainCS.numFixed 28 2 11 e := by
  decide +kernel

end Verif
