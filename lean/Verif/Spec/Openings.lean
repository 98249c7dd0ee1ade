import Verif.Model.Shplonk
import Verif.Spec.Domain

/-! Claims about polynomials, and the commitments that stand for them. -/

namespace Verif.Spec

open Plonk Shplonk

variable {ρ G : Type} [AddCommGroup G] [Module Fr G]

/-- The point a commitment of a query stands for. -/
def valueOf : Committed G → G
  | .point p => p
  | .msm ts => (ts.map fun t => t.1 • t.2).sum

/-- The claim about a polynomial is true. -/
def ClaimTrue (q : Claim ρ (List Fr)) : Prop := q.value = polyAt q.object q.point

/-- The claims are about the same thing, and the commitment is that of the polynomial: its value at the
secret `s`, times the generator. -/
structure SameClaim (s : Fr) (g : G) (p : Claim ρ (List Fr)) (c : Claim ρ (Committed G)) : Prop where
  ref : c.ref = p.ref
  point : c.point = p.point
  value : c.value = p.value
  commitment : valueOf c.object = polyAt p.object s • g

/-- Queries with the same reference are about the same object. -/
def Consistent {T : Type} (qs : List (Claim ρ T)) : Prop :=
  ∀ q ∈ qs, ∀ q' ∈ qs, q.ref = q'.ref → q.object = q'.object

/-- Queries of the same object at the same point have the same value. -/
def Functional {T : Type} (qs : List (Claim ρ T)) : Prop :=
  ∀ q ∈ qs, ∀ q' ∈ qs, q.ref = q'.ref → q.point = q'.point → q.value = q'.value

end Verif.Spec
