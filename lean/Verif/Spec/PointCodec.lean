import Verif.Model.PointCodec
import Verif.Model.Transcript
import Verif.Spec.Curve
import Verif.Lemmas.PrattBase
import Verif.Spec.CurveGroup

/-!
The base field as residues, the points of bn256 and their encoding.
-/

namespace Verif.Spec

/-- Bytes and roots of residues modulo `Q`: 32 bytes of the representative, only those of numbers below
`Q` are read; the root found is a power. -/
def fqIO : FieldIO Fq where
  size := 32
  fromBytes b := if leNat b < Q then some ((leNat b : Nat) : Fq) else none
  toBytes x := leBytes 32 x.val
  sqrt x := if x ^ ((Q + 1) / 4) * x ^ ((Q + 1) / 4) = x then some (x ^ ((Q + 1) / 4)) else none

/-- The points of the curve bn256 G1. -/
abbrev G1 := Pt (3 : Fq)

/-- The affine coordinates of a point. -/
def affOf : G1 → Aff Fq
  | .zero => ⟨0, 0⟩
  | .some x y _ => ⟨x, y⟩

open Classical in
/-- The point with these coordinates, if there is one. -/
noncomputable def pointOf (p : Aff Fq) : Option G1 := if h : ∃ A : G1, AffIs p A then some h.choose else none

/-- The encoding of points of bn256, as the code computes it. -/
noncomputable def g1Codec : Codec G1 where
  toBytes A := (affOf A).toBytes fqIO
  fromBytes bytes := (Aff.fromBytes fqIO 3 bytes).bind pointOf
  coords A := (affOf A).coordinates fqIO 3

end Verif.Spec
