import Verif.Lemmas.RegionLemmas
import Verif.Lemmas.Filled
import Verif.Props.Common

/-! Property C31: placement of regions by the floor planner. -/

namespace Verif.Props

open Spec

/-- C31. After any sequence of regions with any operations, no two regions use the same row of the
same column. -/
theorem C31_no_overlap (usable : Nat) (perm : List Col) (blocks : List (List Op)) (a : Assembly)
    (h : ({ usable := usable, permutation := perm } : Assembly).regions blocks = .ok a) :
    a.starts.length = blocks.length ∧
    ∀ (i j : Nat) (b b' : List Op) (s s' : Nat), i ≠ j → blocks[i]? = some b →
      blocks[j]? = some b' → a.starts[i]? = some s → a.starts[j]? = some s' →
      ∀ o ∈ b, ∀ o' ∈ b', ∀ c r, ¬ (Uses s c r o ∧ Uses s' c r o') := by
  have p := Assembly.regions_placed blocks h
  refine ⟨p.count, ?_⟩
  have key : ∀ (i j : Nat) (b b' : List Op) (s s' : Nat), i < j → blocks[i]? = some b →
      blocks[j]? = some b' → a.starts[i]? = some s → a.starts[j]? = some s' →
      ∀ o ∈ b, ∀ o' ∈ b', ∀ c r, ¬ (Uses s c r o ∧ Uses s' c r o') := by
    intro i j b b' s s' hij h1 h2 h3 h4 o ho o' ho' c r ⟨u, u'⟩
    obtain ⟨c1, -, lt⟩ := uses_column u
    obtain ⟨c2, le, -⟩ := uses_column u'
    have := p.apart i j b b' s s' c hij h1 h2 h3 h4 (List.mem_filterMap.2 ⟨o, ho, c1⟩)
      (List.mem_filterMap.2 ⟨o', ho', c2⟩)
    have := (regionRows_height b).1 o ho
    omega
  intro i j b b' s s' hij h1 h2 h3 h4 o ho o' ho' c r hu
  rcases Nat.lt_or_gt_of_ne hij with h | h
  · exact key i j b b' s s' h h1 h2 h3 h4 o ho o' ho' c r hu
  · exact key j i b' b s' s h h2 h1 h4 h3 o' ho' o ho c r hu.symm

/-- C31. Each region starts at the first row that is below the end of every earlier region with a
column in common. -/
theorem C31_earliest (usable : Nat) (perm : List Col) (blocks : List (List Op)) (a : Assembly)
    (h : ({ usable := usable, permutation := perm } : Assembly).regions blocks = .ok a)
    (j : Nat) (b' : List Op) (s' : Nat) (hb : blocks[j]? = some b') (hs : a.starts[j]? = some s') :
    IsLeast {r | ∀ (i : Nat) (b : List Op) (s rows : Nat), i < j → blocks[i]? = some b →
      a.starts[i]? = some s → Share b b' → Height b rows → s + rows ≤ r} s' := by
  have p := Assembly.regions_placed blocks h
  constructor
  · intro i b s rows hij h1 h3 ⟨o, ho, o', ho', c, c1, c2⟩ hh
    rw [height_unique hh (regionRows_height b)]
    exact p.apart i j b b' s s' c hij h1 hb h3 hs (List.mem_filterMap.2 ⟨o, ho, c1⟩)
      (List.mem_filterMap.2 ⟨o', ho', c2⟩)
  · intro r hr
    rcases p.tight j b' s' hb hs with h0 | ⟨i, b, s, c, hij, h1, h3, c1, c2, e⟩
    · omega
    · obtain ⟨o, ho, c1⟩ := List.mem_filterMap.1 c1
      obtain ⟨o', ho', c2⟩ := List.mem_filterMap.1 c2
      have := hr i b s _ hij h1 h3 ⟨o, ho, o', ho', c, c1, c2⟩ (regionRows_height b)
      omega

/-- C31. Nothing a region writes is overwritten by another region, and a selector is enabled in a
row exactly when a region enables it there. -/
theorem C31_writes_kept (usable : Nat) (perm : List Col) (blocks : List (List Op)) (a : Assembly)
    (h : ({ usable := usable, permutation := perm } : Assembly).regions blocks = .ok a) :
    (∀ (i : Nat) (b : List Op) (s c o : Nat) (v : Fr), blocks[i]? = some b →
      a.starts[i]? = some s → LastWrite b c o v → a.advice c (s + o) = v) ∧
    (∀ t r, a.selector t r = true ↔ ∃ (i : Nat) (b : List Op) (s : Nat), blocks[i]? = some b ∧
      a.starts[i]? = some s ∧ ∃ simple, ∃ o ∈ b, Uses s (.sel ⟨t, simple⟩) r o) := by
  have p := Assembly.regions_placed blocks h
  refine ⟨fun i b s c o v h1 h3 hl => p.kept i b s c o v h1 h3 (valueAt_lastWrite hl), ?_⟩
  intro t r
  rw [p.selected]
  constructor
  · rintro ⟨i, b, s, h1, h3, hle, hsel⟩
    obtain ⟨o, ho, he⟩ := List.any_eq_true.1 hsel
    cases o with
    | enable u k =>
      simp only [Op.enables, decide_eq_true_eq] at he
      obtain ⟨rfl, hk⟩ := he
      exact ⟨i, b, s, h1, h3, u.simple, _, ho, rfl, by omega⟩
    | _ => simp [Op.enables] at he
  · rintro ⟨i, b, s, h1, h3, simple, o, ho, hu⟩
    cases o with
    | enable u k =>
      obtain ⟨e1, e2⟩ := hu
      cases e1
      refine ⟨i, b, s, h1, h3, by omega, List.any_eq_true.2 ⟨_, ho, ?_⟩⟩
      show decide (t = t ∧ r - s = k) = true
      exact decide_eq_true ⟨rfl, by omega⟩
    | advice c o v => exact absurd hu.1 (by simp)
    | fromInstance i r c o v => exact absurd hu.1 (by simp)
    | equal x y => exact hu.elim

/-- C31. In this circuit, whatever the trace, there are seven regions and all of them start at
row 0; the range table fills its column from row 0. -/
theorem C31_circuit (n : Nat) (mx : Matrix) (ch : Nat → Fr) (inst : Nat → List Fr) (a : Assembly)
    (h : synthesize n mx ch inst = .ok a) :
    a.starts = [0, 0, 0, 0, 0, 0, 0] ∧
    ∀ r, r < mainCS.usableRows n → a.fixed 0 r = if r < 256 then (r : Fr) else 0 := by
  obtain ⟨-, -, -, h⟩ := (synthesize_ok_iff n mx ch inst a).1 h
  obtain ⟨p, vin, vc, -, -, -, -, -, -, -, -, -, -, -, rfl⟩ := (loadTable_ok_iff mx ch inst a).1 h
  rw [mainCS_usable]
  refine ⟨rfl, fun r hr => ?_⟩
  show (if 0 = 0 ∧ r < n - 6 then (rangeValues DOMAIN).getD r ((rangeValues DOMAIN).headD 0) else 0)
    = _
  rw [if_pos ⟨rfl, hr⟩, rangeValues_getD]

set_option synthInstance.maxSize 1000 in
/-- Four regions, the second and third below the first: they share columns with it. -/
example : (({ usable := 10, permutation := [] } : Assembly).regions
      [[.advice 0 0 5, .advice 1 1 6], [.advice 1 0 7, .enable ⟨0, true⟩ 2], [.advice 0 0 8],
       [.advice 2 3 9]]).map (fun a => (a.starts, a.advice 0 0, a.advice 1 1, a.advice 1 2,
          a.advice 0 2, a.advice 2 3, a.selector 0 4)) =
    .ok ([0, 2, 2, 0], 5, 6, 7, 8, 9, true) := by decide +kernel

end Verif.Props

#print axioms Verif.Props.C31_no_overlap
#print axioms Verif.Props.C31_earliest
#print axioms Verif.Props.C31_writes_kept
#print axioms Verif.Props.C31_circuit
