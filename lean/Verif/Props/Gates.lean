import Verif.Lemmas.StepLemmas

/-! Properties C17 and C18: opcode selectors and the processor gates. -/

namespace Verif.Props

open Spec

/-- C17. For a current instruction (the value of an expression in a row) among the eight opcodes,
the deselector of an opcode is nonzero exactly when it is the current instruction; for any current
instruction whatsoever, the selector of an opcode is zero exactly when it is the current
instruction. -/
theorem C17_selectors (n row : Nat) (g : Grid) (ci : Expr) (op : UInt8) (ho : op ∈ OPCODES) :
    (∀ v ∈ OPCODES, ci.eval n g row = frOfByte v →
      ((createDeselector ci op).eval n g row ≠ 0 ↔ v = op)) ∧
    ((createSelector ci op).eval n g row = 0 ↔ ci.eval n g row = frOfByte op) := by
  constructor
  · intro v hv hci
    rw [eval_deselector, hci]
    exact desel_opcode op ho v hv
  · rw [eval_sel, sub_eq_zero]

/-- The eight opcodes are the eight commands. -/
example : OPCODES.map (fun b => Char.ofNat b.toNat) = "<>+-,.[]".toList := by decide

example : (createDeselector (.const 43) 43).eval 8 ⟨fun _ _ => 0, fun _ _ => 0, fun _ _ => 0,
    fun _ _ => false, fun _ => 0⟩ 0 ≠ 0 := by decide +kernel

/-- The range table holds only bytes in the usable rows. -/
def ByteTable (n : Nat) (g : Grid) : Prop :=
  ∀ r, r < mainCS.usableRows n → (g.fixed mainConfig.p.table r).val < 256

/-- C18. In an assignment satisfying all gates and lookups, take two consecutive usable rows of the
processor table, with the step selector on the first and the lookup on both. If the current
instruction is an opcode, the second row is a correct successor of the first, and the memory values
are bytes. -/
theorem C18_step (n i : Nat) (g : Grid) (copies : List ((Col × Nat) × (Col × Nat))) (op : UInt8)
    (hs : Satisfied mainCS n g copies) (ht : ByteTable n g) (hi : i + 1 < mainCS.usableRows n)
    (hsP : g.selector mainConfig.p.sP.index i = true)
    (hsC : g.selector mainConfig.p.sC.index i = true)
    (hl : g.selector mainConfig.p.sLookup.index i = true)
    (hl' : g.selector mainConfig.p.sLookup.index (i + 1) = true)
    (ho : op ∈ OPCODES) (hci : (row g i).ci = frOfByte op) :
    RowStep op (row g i) (row g (i + 1)) ∧ (row g i).mv.val < 256 ∧ (row g (i + 1)).mv.val < 256 := by
  have hn : i + 1 < n := usable_lt hi
  have hR := gates_iff.1 hs.gates i (by omega)
  have hL := lookups_iff.1 hs.lookups
  have hbyte : ∀ r, r < mainCS.usableRows n → g.selector 0 r = true → (g.advice 5 r).val < 256 := by
    intro r hr hsel
    obtain ⟨r', h1, h2⟩ := hL r hr
    rw [hsel] at h2
    simp only [if_true, one_mul] at h2
    rw [h2]
    exact ht r' h1
  have hb1 := hbyte i (by omega) hl
  have hb2 := hbyte (i + 1) hi hl'
  have hnx : nxt n i = i + 1 := rotate_one hn
  have hci' : g.advice 1 i = frOfByte op := hci
  have p0 := hR.p0 hsP
  have p1 := hR.p1 hsP
  have p2 := hR.p2 hsP
  have p3 := hR.p3 hsP
  rw [hnx] at p0 p1 p2 p3
  rw [hci'] at p1 p2 p3
  rw [polyP1_iff ho _ _ _ _ _ (hR.c0 hsC) (hR.c1 hsC)] at p1
  rw [polyP2_iff ho] at p2
  rw [polyP3_iff ho, byte_add hb1 hb2, byte_sub hb1 hb2] at p3
  refine ⟨⟨?_, p1, p2, p3.1, p3.2.1, p3.2.2⟩, hb1, hb2⟩
  show g.advice 0 (i + 1) = g.advice 0 i + 1
  linear_combination p0

#print axioms C17_selectors
#print axioms C18_step

end Verif.Props
