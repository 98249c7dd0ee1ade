import Verif.Lemmas.PermLemmas
import Verif.Model.Circuit

/-! Property C33: copy constraints become cycles. -/

namespace Verif.Props

open Spec PermAssembly

/-- C33. Any sequence of `copy` calls on cells of the permutation's columns succeeds (the loop in it
ends); the mapping is then a permutation of the cells, and two cells are on the same cycle exactly
if they are tied by the copies. -/
theorem C33_cycles (fuel n : Nat) (columns : List Col) (hc : columns.Nodup)
    (hf : columns.length * n ≤ fuel) (copies : List ((Col × Nat) × (Col × Nat)))
    (hg : ∀ p ∈ copies, (p.1.1 ∈ columns ∧ p.1.2 < n) ∧ (p.2.1 ∈ columns ∧ p.2.2 < n)) :
    ∃ a, copyAll fuel copies (new n columns) = .ok (.ok a) ∧
      IsPermutation columns.length n a.mapping ∧
      ∀ c d x y, CellAt columns c x → CellAt columns d y → x.2 < n → y.2 < n →
        (SameLoop a.mapping c d ↔ Tied copies x y) := by
  obtain ⟨σ, rep, sz, e, h⟩ := copyAll_eq hc (m := columns.length) (n := n) rfl fuel hf copies [] 1
    id (fun _ => 1) hg (inv_nil _ rfl)
  rw [← new_eq columns rfl] at e
  refine ⟨_, e, isPermutation_tab σ, ?_⟩
  rintro ⟨i, j⟩ ⟨i', j'⟩ ⟨x, r⟩ ⟨y, r'⟩ ⟨h1, h2⟩ ⟨h3, h4⟩ h5 h6
  cases h2
  cases h4
  obtain ⟨hi, h1⟩ := List.getElem?_eq_some_iff.1 h1
  obtain ⟨hi', h3⟩ := List.getElem?_eq_some_iff.1 h3
  have := tied_iff hc rfl hg h (⟨i, hi⟩, ⟨j, h5⟩) (⟨i', hi'⟩, ⟨j', h6⟩)
  unfold cellOf at this
  simp only [h1, h3] at this
  rw [← this, ← h.reps.iff, ← sameLoop_tab]
  rfl

/-- C33, the other calls: with any cell outside, the sequence ends with an error. It never panics. -/
theorem C33_rejects (fuel n : Nat) (columns : List Col) (hc : columns.Nodup)
    (hf : columns.length * n ≤ fuel) (copies : List ((Col × Nat) × (Col × Nat)))
    (hg : ¬ ∀ p ∈ copies, (p.1.1 ∈ columns ∧ p.1.2 < n) ∧ (p.2.1 ∈ columns ∧ p.2.2 < n)) :
    ∃ e, copyAll fuel copies (new n columns) = .ok (.error e) ∧
      (e = .columnNotInPermutation ∨ e = .boundsFailure) := by
  obtain ⟨e, h1, h2⟩ := copyAll_err hc (m := columns.length) (n := n) rfl fuel hf copies [] 1
    id (fun _ => 1) hg (inv_nil _ rfl)
  rw [← new_eq columns rfl] at h1
  exact ⟨e, h1, h2⟩

/-- C33, what the cycles are for: values in the cells are constant along the mapping exactly if
every copied pair is equal. -/
theorem C33_values (fuel n : Nat) (columns : List Col) (hc : columns.Nodup)
    (hf : columns.length * n ≤ fuel) (copies : List ((Col × Nat) × (Col × Nat)))
    (a : PermAssembly) (h : copyAll fuel copies (new n columns) = .ok (.ok a))
    {α : Type} (value : Col × Nat → α) :
    (∀ p ∈ copies, value p.1 = value p.2) ↔
      ∀ c d x y, CellAt columns c x → CellAt columns d y → entry a.mapping c = some d →
        value x = value y := by
  have hg : ∀ p ∈ copies, (p.1.1 ∈ columns ∧ p.1.2 < n) ∧ (p.2.1 ∈ columns ∧ p.2.2 < n) := by
    by_contra hg
    obtain ⟨e, h1, -⟩ := C33_rejects fuel n columns hc hf copies hg
    rw [h] at h1
    cases h1
  obtain ⟨a', h', hp, hloop⟩ := C33_cycles fuel n columns hc hf copies hg
  rw [h] at h'
  obtain rfl : a = a' := by injection h' with h'; injection h'
  constructor
  · intro hv c d x y hx hy hcd
    have hin : ∀ e z, CellAt columns e z → (∃ f, entry a.mapping e = some f ∨
        entry a.mapping f = some e) → z.2 < n := by
      rintro e z ⟨-, h2⟩ ⟨f, h | h⟩
      · rw [← h2]
        exact ((hp.defined e).1 (by rw [h]; rfl)).2
      · rw [← h2]
        exact (hp.inside f e h).2
    have key : ∀ x y, Tied copies x y → value x = value y := by
      intro x y ht
      induction ht with
      | rel x y h => exact hv _ h
      | refl => rfl
      | symm _ _ _ ih => exact ih.symm
      | trans _ _ _ _ _ ih1 ih2 => exact ih1.trans ih2
    exact key _ _ ((hloop c d x y hx hy (hin c x hx ⟨d, .inl hcd⟩) (hin d y hy ⟨c, .inr hcd⟩)).1
      (.single hcd))
  · intro hv p hpm
    obtain ⟨⟨h1, h2⟩, h3, h4⟩ := hg p hpm
    obtain ⟨i, hi, e1⟩ := List.mem_iff_getElem.1 h1
    obtain ⟨j, hj, e2⟩ := List.mem_iff_getElem.1 h3
    have hl : SameLoop a.mapping (i, p.1.2) (j, p.2.2) :=
      (hloop (i, p.1.2) (j, p.2.2) p.1 p.2 ⟨by simp [hi, e1], rfl⟩ ⟨by simp [hj, e2], rfl⟩ h2 h4).2
        (.rel _ _ hpm)
    have : ∀ d, SameLoop a.mapping (i, p.1.2) d → ∀ y, CellAt columns d y → value p.1 = value y := by
      intro d hd
      induction hd with
      | refl =>
        rintro ⟨y, r⟩ ⟨h5, h6⟩
        have h5 : columns[i]? = some y := h5
        have h6 : p.1.2 = r := h6
        rw [List.getElem?_eq_getElem hi, e1] at h5
        cases h5
        cases h6
        rfl
      | @tail b d hb hbd ih =>
        intro y hy
        have hb' := (hp.defined b).1 (by rw [hbd]; rfl)
        have hbc : CellAt columns b (columns[b.1]'hb'.1, b.2) := ⟨by simp [hb'.1], rfl⟩
        rw [ih _ hbc]
        exact hv _ _ _ _ hbc hy hbd
    exact this _ hl p.2 ⟨by simp [hj, e2], rfl⟩

/-- The columns of the brainfuck circuit's permutation are distinct. -/
theorem C33_circuit : mainCS.permutation.Nodup ∧ mainCS.permutation.length = 16 := by decide +kernel

/-- Two chains of three columns merged by a last copy; a copy inside a cycle changes nothing. -/
example : (copyAll 12 [((.advice 0, 0), (.advice 1, 0)), ((.instance_ 0, 3), (.advice 1, 2)),
      ((.advice 1, 0), (.advice 1, 2)), ((.advice 0, 0), (.instance_ 0, 3))]
      (new 4 [.advice 0, .advice 1, .instance_ 0])).map (·.map (·.mapping)) =
    .ok (.ok [[(1, 0), (0, 1), (0, 2), (0, 3)], [(2, 3), (1, 1), (0, 0), (1, 3)],
      [(2, 0), (2, 1), (2, 2), (1, 2)]]) := by decide +kernel

#print axioms C33_cycles
#print axioms C33_rejects
#print axioms C33_values
#print axioms C33_circuit

end Verif.Props
