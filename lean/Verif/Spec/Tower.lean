import Mathlib.Algebra.Field.ZMod
import Verif.Model.Tower
import Verif.Spec.Curve

/-! The fields above the base field of bn256: what their elements stand for. -/

namespace Verif.Spec

open Verif.Tower

/-- A field above the base field with the elements that the code calls u, v and w. -/
structure Above (K : Type) [Field K] where
  emb : Fq →+* K
  u : K
  v : K
  w : K
  hu : u ^ 2 = -1
  hv : v ^ 3 = 9 + u
  hw : w ^ 2 = v

variable {K : Type} [Field K] (T : Above K)

/-- `c0 + c1 u`. -/
def Above.value2 (a : Fq2 Fq) : K := T.emb a.c0 + T.emb a.c1 * T.u

/-- `c0 + c1 v + c2 v²`. -/
def Above.value6 (a : Fq6 Fq) : K := T.value2 a.c0 + T.value2 a.c1 * T.v + T.value2 a.c2 * T.v ^ 2

/-- `c0 + c1 w`. -/
def Above.value12 (a : Fq12 Fq) : K := T.value6 a.c0 + T.value6 a.c1 * T.w

end Verif.Spec
