import Verif.Model.IpaOpen
import Verif.Spec.Ipa
import Verif.Spec.Openings

/-!
What the opening of many queries without a trusted setup is to do.
-/

namespace Verif.Spec

open Verif.Ipa Verif.IpaOpen
open Shplonk (Claim)

variable {ρ M K : Type} [AddCommGroup M] [Module Fr M]

/-- The commitment of a query stands for the point. -/
def IpaOpen.Stands (cs : Coords K M) (params : Params M)  : Committed K M → M → Prop
  | .point p, a => p = a
  | .msm m, a => m.eval cs params = .ok a

/-- The same claim about something else. -/
structure IpaOpen.Same {T T' : Type} (R : T → T' → Prop) (p : Claim ρ T) (c : Claim ρ T') : Prop where
  ref : c.ref = p.ref
  point : c.point = p.point
  value : c.value = p.value
  object : R p.object c.object

/-- The commitment to the polynomial with the blinding factor. -/
def IpaOpen.commitment (params : Params M) (o : List Fr × Fr) : M := dot o.1 params.g + o.2 • params.w

/-- A prover: what it sends, given the challenges so far. -/
structure IpaOpen.Strategy (M : Type) where
  qPrime : Fr → Fr → M
  u : Fr → Fr → Fr → List Fr
  ipa : Fr → Fr → Fr → Fr → Ipa.Strategy M

/-- What it answers to these challenges. -/
def IpaOpen.Strategy.proof (σ : IpaOpen.Strategy M) (x1 x2 x3 x4 xi z : Fr) (us : List Fr) : OpenProof M :=
  ⟨σ.qPrime x1 x2, σ.u x1 x2 x3, (σ.ipa x1 x2 x3 x4).proof xi z us⟩

/-- The prover that sends points of which it knows coefficients. -/
def IpaOpen.Strategy.value (params : Params M) (σ : IpaOpen.Strategy (Ipa.Rep params.n)) : IpaOpen.Strategy M :=
  ⟨fun x1 x2 => (σ.qPrime x1 x2).value params, σ.u, fun x1 x2 x3 x4 => (σ.ipa x1 x2 x3 x4).value params⟩

/-- Horner's rule: the first is multiplied most often. -/
def folded {V : Type} [AddCommGroup V] [Module Fr V] (t : Fr) (l : List V) : V := l.foldl (fun a v => t • a + v) 0

end Verif.Spec
