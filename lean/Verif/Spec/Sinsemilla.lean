import Verif.Model.Sinsemilla
import Verif.Spec.Ecc
import Mathlib.Data.Nat.Digits.Defs

/-!
The Sinsemilla hash (Zcash protocol specification, section 5.4.1.9), and a lookup of three expressions at once.
-/

namespace Verif.Spec.Sinsemilla

open Verif.Gadget Verif.Spec.Gadget Verif.Spec Verif.Spec.Ecc

variable {F : Type} [Field F] [DecidableEq F] {b : F}

/-- Incomplete addition: there is no sum if a point is the identity or the points are equal up to sign. -/
noncomputable def plus (P Q : Pt b) : Option (Pt b) :=
  open Classical in if P = 0 ∨ Q = 0 ∨ P = Q ∨ P = -Q then none else some (P + Q)

/-- One word: the accumulator is doubled and the generator added, as (A + S) + A. -/
noncomputable def step (A S : Pt b) : Option (Pt b) := do plus (← plus A S) A

/-- The hash of words to a point, with the generators `G`; there is none if an addition fails. -/
noncomputable def hashOf (G : Nat → Pt b) : Pt b → List Nat → Option (Pt b)
  | A, [] => some A
  | A, m :: ms => do hashOf G (← step A (G m)) ms

/-- The list contains the 1024 generators. -/
structure Generators (S : List (F × F)) (G : Nat → Pt b) : Prop where
  length : S.length = 1024
  points : ∀ i < 1024, G i ≠ 0 ∧ S[i]? = some (coords (G i))

/-- The three expressions are, in all rows, a row of the table. -/
def LooksUp (l : Verif.Gadget.Expr F × Verif.Gadget.Expr F × Verif.Gadget.Expr F) (table : List (F × F × F)) (w : Content F) (region : Nat) (calls : Calls F) : Prop :=
  ∀ row : Int, (l.1.eval (enabled calls) (w region) row, l.2.1.eval (enabled calls) (w region) row,
    l.2.2.eval (enabled calls) (w region) row) ∈ table

/-- The words of a piece: as many as it has, of 10 bits, and its content is the number with these digits. -/
def WordsOf {p : Nat} (w : Content (ZMod p)) (piece : Piece p) (ms : List Nat) : Prop :=
  ms.length = piece.numWords ∧ (∀ m ∈ ms, m < 1024) ∧ (w.at piece.value.cell).val = Nat.ofDigits 1024 ms

/-- The running sums of a piece: cell `i` contains what is left after `i` words. -/
def SumsOf {p : Nat} (w : Content (ZMod p)) (zs : List (Assigned (ZMod p))) (ms : List Nat) : Prop :=
  zs.length = ms.length ∧ ∀ i (h : i < zs.length), w.at zs[i].cell = (Nat.ofDigits 1024 (ms.drop i) : Nat)

end Verif.Spec.Sinsemilla
