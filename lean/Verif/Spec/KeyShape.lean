import Verif.Spec.Piop

/-! The shape of a verifying key. -/

namespace Verif.Spec

open Plonk

/-- A key as it is generated for the brainfuck circuit with `2^k` rows, whatever the commitments are. -/
structure KeyShape {C : Type} (key : Key C) (k : Nat) : Prop where
  domain : IsDomain key.domain key.cs.degree k
  degree : key.cs.degree = 11
  closed : Closed key.cs
  advice : key.cs.adviceQueries.Nodup
  fixed : key.cs.fixedQueries.Nodup
  fixedLength : key.fixed.length = key.cs.numFixed
  sigmaLength : key.sigma.length = key.cs.permutation.length
  instances : key.cs.numInstance = 2
  challenges : key.cs.numChallenges = 11

end Verif.Spec
