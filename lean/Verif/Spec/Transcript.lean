import Verif.Model.Transcript

/-! Encodings of points, and commitments in place of polynomials. -/

namespace Verif.Spec

open Plonk

/-- Points are encoded in 32 bytes from which they are decoded again; coordinates are 32 bytes each. -/
structure Lawful {G : Type} (codec : Codec G) : Prop where
  length : ∀ p, (codec.toBytes p).length = 32
  decode : ∀ p, codec.fromBytes (codec.toBytes p) = some p
  coords : ∀ p x y, codec.coords p = some (x, y) → x.length = 32 ∧ y.length = 32

/-- A key with other commitments. -/
def mapKey {C D : Type} (f : C → D) (key : Key C) : Key D :=
  ⟨key.domain, key.cs, key.fixed.map f, key.sigma.map f⟩

/-- A proof with other commitments. -/
def mapCommitments {C D : Type} (f : C → D) (com : Commitments C) : Commitments D where
  advice := com.advice.map f
  permuted := com.permuted.map fun p => (f p.1, f p.2)
  products := com.products.map f
  lookupProducts := com.lookupProducts.map f
  random := f com.random
  pieces := com.pieces.map f

/-- A query with another commitment. -/
def mapQuery {C D : Type} (f : C → D) (q : Query C) : Query D where
  commitment := match q.commitment with
    | .point c => .point (f c)
    | .msm ts => .msm (ts.map fun t => (t.1, f t.2))
  point := q.point
  value := q.value

end Verif.Spec
