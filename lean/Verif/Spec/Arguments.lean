import Verif.Model.Fr

/-! What the running columns of the circuit are meant to compute. -/

namespace Verif.Spec

/-- The value of one row of three cells under the challenges. -/
def rowFactor (alpha d e f : Fr) (t : Fr × Fr × Fr) : Fr := alpha - d * t.1 - e * t.2.1 - f * t.2.2

/-- The product over the rows of a table with three columns. -/
def tableProduct (alpha d e f : Fr) (T : List (Fr × Fr × Fr)) : Fr :=
  (T.map (rowFactor alpha d e f)).prod

/-- The running sum over a column: every entry is added after multiplying by the challenge. -/
def runningSum (gamma : Fr) (l : List Fr) : Fr := l.foldl (fun acc v => acc * gamma + v) 0

/-- Two lists are equal up to zeros in front. -/
def SameUpToLeadingZeros (l l' : List Fr) : Prop :=
  ∃ k, l = List.replicate k 0 ++ l' ∨ l' = List.replicate k 0 ++ l

end Verif.Spec
