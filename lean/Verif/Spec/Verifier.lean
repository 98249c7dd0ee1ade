import Verif.Model.Fr

/-!
What the on-chain verifier is meant to do with its witnesses, stated without its buffers and loops.
-/

namespace Verif.Spec

/-- A public input column: the length, then the elements. -/
def withLength (l : List Fr) : List Fr := (l.length : Fr) :: l

/-- Bytes taken two by two, low byte first. An odd byte at the end is dropped. -/
def words : List UInt8 → List Nat
  | a :: b :: l => (a.toNat + 256 * b.toNat) :: words l
  | _ => []

/-- The program column rebuilt from the bytes of the code witness. -/
def codeColumn (code : List UInt8) : List Fr :=
  withLength ((words code).map fun (w : Nat) => (w : Fr))

/-- The input column rebuilt from the bytes of the input witness. -/
def inputColumn (input : List UInt8) : List Fr :=
  withLength (input.map fun b => ((b.toNat : Nat) : Fr))

/-- The witness at index `i` exists, is `b`, and fits in `cap` bytes. -/
def Loads (ws : List (List UInt8)) (i cap : Nat) (b : List UInt8) : Prop :=
  ws[i]? = some b ∧ b.length ≤ cap

/-- The first four witnesses load. -/
def FourLoad (ws : List (List UInt8)) (params vk proof code : List UInt8) : Prop :=
  Loads ws 0 1024 params ∧ Loads ws 1 4096 vk ∧ Loads ws 2 8192 proof ∧ Loads ws 3 2048 code

/-- A code witness the verifier can hold: whole words, at most 1023 of them. -/
def CodeFits (code : List UInt8) : Prop := code.length % 2 = 0 ∧ code.length ≤ 2046

/-- An input witness the verifier can hold: at most 1023 bytes. -/
def InputFits (input : List UInt8) : Prop := input.length ≤ 1023

end Verif.Spec
