import Verif.Model.Tables

/-! The part of a synthesized circuit that is fixed in the verifying key. -/

namespace Verif.Spec

/-- Two synthesized circuits of `n` rows have the same selectors, the same copy constraints and
the same fixed column: key generation makes the same verifying key of them. -/
structure SameCircuit (n : Nat) (a b : Assembly) : Prop where
  selector : ∀ s, s < mainCS.numSelectors → ∀ r, a.selector s r = b.selector s r
  copies : a.copies = b.copies
  fixed : ∀ c, c < mainCS.numFixed → ∀ r, r < mainCS.usableRows n → a.fixed c r = b.fixed c r

/-- The tables of two traces have the same lengths. -/
structure SameLengths (m m' : Matrix) : Prop where
  processor : m.processor.length = m'.processor.length
  memory : m.memory.length = m'.memory.length
  instruction : m.instruction.length = m'.instruction.length
  output : m.output.length = m'.output.length
  input : m.input.length = m'.input.length
  program : m.program.length = m'.program.length

end Verif.Spec
