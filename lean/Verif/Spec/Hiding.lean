import Verif.Model.ProverTranscript
import Verif.Spec.Accepts

/-! What is compared when asking whether a proof hides the values it was made from. -/

namespace Verif.Spec

open Plonk PlonkProver

/-- The columns the prover commits to before it draws a challenge. -/
def firstColumns (cs : CS) : List Nat := (cs.advicePhase.zipIdx.filter (·.1 = 0)).map (·.2)

/-- A column with its last entry set to one. -/
def withOne (col : List Fr) : List Fr := col.set (col.length - 1) 1

/-- Two columns of `n` rows that differ in row `r`, and in no other but perhaps the last. -/
def DifferAt (n r : Nat) (a b : List Fr) : Prop :=
  a.length = n ∧ b.length = n ∧ r + 1 < n ∧ a[r]? ≠ b[r]? ∧ ∀ j, j ≠ r → j + 1 < n → a[j]? = b[j]?

/-- A way of proving hides: whatever is seen as a proof from one witness could have been seen from any
other. `sees w out` says that `out` can be the proof made from `w`. -/
def Hides {W : Type} (ok : W → Prop) (sees : W → List UInt8 → Prop) : Prop :=
  ∀ w w', ok w → ok w' → ∀ out, sees w out → sees w' out

/-- What a prover of the brainfuck circuit has: the columns to commit to, in each phase, as a function of
the challenges drawn before. -/
abbrev Witness := Nat → List Fr → Except PlonkProver.Stop (List (List Fr))

/-- The columns of a witness make an accepted assignment, whatever the challenges: those of the first
phase, chosen without challenges, and those of the second. The last row is left out, as the prover
overwrites it. -/
def GoodWitness (n : Nat) (mx : Matrix) (inst : Nat → List Fr) (w : Witness) : Prop :=
  ∃ first, w 0 (List.replicate mainCS.numChallenges 0) = .ok first ∧
    ∀ ch : List Fr, ∃ second g, w 1 ch = .ok second ∧ Accepts n mx inst g ∧
      (∀ i, g.challenge i = ch.getD i 0) ∧
      ∀ c < mainCS.numAdvice, ∃ a b, first[c]? = some a ∧ second[c]? = some b ∧ a.length = n ∧ b.length = n ∧
        ∀ r, r + 1 < n → (FirstPhase c → a[r]? = some (g.advice c r)) ∧
          (¬ FirstPhase c → b[r]? = some (g.advice c r))

end Verif.Spec
