import Verif.Model.Evaluation

/-! What the prover's compiled evaluation must compute. -/

namespace Verif.Spec

/-- The first `m` columns with `n` rows each. -/
def columnsOf (m n : Nat) (f : Nat → Nat → Fr) : List (List Fr) :=
  (List.range m).map fun c => (List.range n).map (f c)

/-- The expression has no selector and only mentions columns and challenges that exist. -/
def Mentions (numFixed numAdvice numInstance numChallenges : Nat) : Expr → Prop
  | .const _ => True
  | .selector _ => False
  | .fixed c _ => c < numFixed
  | .advice c _ => c < numAdvice
  | .instance_ c _ => c < numInstance
  | .challenge i => i < numChallenges
  | .neg a => Mentions numFixed numAdvice numInstance numChallenges a
  | .sum a b => Mentions numFixed numAdvice numInstance numChallenges a ∧
      Mentions numFixed numAdvice numInstance numChallenges b
  | .product a b => Mentions numFixed numAdvice numInstance numChallenges a ∧
      Mentions numFixed numAdvice numInstance numChallenges b
  | .scaled a _ => Mentions numFixed numAdvice numInstance numChallenges a

/-- Horner's rule: `start`, then for every value multiply by `x` and add. -/
def horner (x start : Fr) (vs : List Fr) : Fr := vs.foldl (fun acc v => acc * x + v) start

end Verif.Spec
