import Verif.Spec.Transcript
import Verif.Spec.Piop

/-! The messages of a proof, and what the verifier does with them once they are read. -/

namespace Verif.Spec

open Plonk Shplonk

variable {G G₂ GT : Type} [AddCommGroup G] [Module Fr G]
variable [AddCommGroup G₂] [Module Fr G₂] [AddCommGroup GT] [Module Fr GT] [DecidableEq GT]

/-- The commitment to a polynomial, with parameters made from the secret `s` and the generator `g`. -/
def commitTo (s : Fr) (g : G) (p : Poly) : G := polyAt p s • g

/-- The numbers of messages are right, the queries can be made, and the opening is accepted. -/
def Passes (pairing : G →ₗ[Fr] G₂ →ₗ[Fr] GT) (params : VerifierParams G G₂) (key : Key G)
    (instances : List (List Fr)) (com : Commitments G) (ch : Challenges) (e : Evals) (y v : Fr) (h1 : G)
    (u : Fr) (h2 : G) : Prop :=
  Shaped key com e ∧ ∃ queries,
    claims (Ref.ofKey key) params.n instances (Ref.ofCommitments com) ch e = .ok queries ∧
    accepts pairing params.g0 params.g2 params.sG2 (queries.map Ref.toClaim) y v h1 u h2 = .ok true

/-- What a prover sends after the challenge `x`: the scalars, and the two polynomials of the opening,
each of them after further challenges. -/
structure Opener where
  evals : Challenges → Evals
  first : Challenges → (y v : Fr) → Poly
  second : Challenges → (y v u : Fr) → Poly

/-- The first challenges, and those of the opening with the secret of the parameters. -/
abbrev Draws := (Fr × Fr × Fr × Fr × Fr) × (Fr × Fr × Fr × Fr)

/-- The verifier accepts what the prover sends, with these challenges and this secret. -/
def Fooled (pairing : G →ₗ[Fr] G₂ →ₗ[Fr] GT) (g : G) (g2 : G₂) (key : Key Poly) (k : Nat)
    (instances : List (List Fr)) (advice : List Poly) (user : List Fr) (s : Strategy) (o : Opener) (t : Draws) :
    Prop :=
  let (θ, β, γ, y, x) := t.1
  let (y', v, u, secret) := t.2
  let ch : Challenges := ⟨user, θ, β, γ, y, x⟩
  Passes pairing ⟨2 ^ k, g, g2, secret • g2⟩ (mapKey (commitTo secret g) key) instances
    (mapCommitments (commitTo secret g) (s.commitments advice θ β γ y)) ch (o.evals ch) y' v
    (commitTo secret g (o.first ch y' v)) u (commitTo secret g (o.second ch y' v u))

end Verif.Spec
