import Verif.Model.Ipa
import Verif.Spec.Domain
import Verif.Spec.CurveGroup

/-!
What the commitment scheme without a trusted setup is to do.
-/

namespace Verif.Spec

open Ipa

variable {M K : Type} [AddCommGroup M] [Module Fr M]

/-- The sum of multiples of points. -/
def dot (p : List Fr) (g : List M) : M := ((p.zip g).map fun q => q.1 • q.2).sum

/-- Parameters for polynomials of degree below `2^k`, with `k` at least 1. -/
structure Ipa.Ok (params : Params M) : Prop where
  k : 1 ≤ params.k
  n : params.n = 2 ^ params.k
  g : params.g.length = params.n

/-- The point is a commitment to a polynomial that has this value at `x`. -/
def Ipa.Opens (params : Params M) (point : M) (x v : Fr) : Prop :=
  ∃ (p : List Fr) (r : Fr), p.length = params.n ∧ point = dot p params.g + r • params.w ∧ polyAt p x = v

/-- No relation between the parameters is known: they are independent. -/
def Ipa.Independent (params : Params M) : Prop :=
  ∀ (p : List Fr) (r t : Fr), p.length = params.n → dot p params.g + r • params.w + t • params.u = 0 →
    (∀ c ∈ p, c = 0) ∧ r = 0 ∧ t = 0

/-- Coordinates tell a point up to its sign. -/
structure Ipa.Lawful [Neg K] (cs : Coords K M) : Prop where
  coords : ∀ p : M, p ≠ 0 → ∃ x y, cs.coords p = some (x, y) ∧ cs.fromXY x y = some p
  sign : ∀ x y y' p p', cs.fromXY x y = some p → cs.fromXY x y' = some p' → y = y' ∨ y = -y' ∧ p = -p'

/-- A prover: the first point, the two points of a round given the challenges so far, the last two numbers. -/
structure Ipa.Strategy (M : Type) where
  s : M
  lr : Fr → Fr → List Fr → M × M
  last : Fr → Fr → List Fr → Fr × Fr

/-- What it answers to these challenges. -/
def Ipa.Strategy.proof (σ : Ipa.Strategy M) (xi z : Fr) (us : List Fr) : Proof M :=
  ⟨σ.s, (List.range us.length).map fun j => σ.lr xi z (us.take j), (σ.last xi z us).1, (σ.last xi z us).2⟩

namespace Ipa

/-- The coefficients of the last generator in the first ones. -/
def coeffs (us : List Fr) : List Fr := us.foldr (fun u v => v ++ v.map (· * u)) [1]

/-- The points sent, with the factors of the verifier. -/
def sent (ms : List (M × M)) (us : List Fr) : M := ((ms.zip us).map fun e => e.2⁻¹ • e.1.1 + e.2 • e.1.2).sum

/-- What the verifier adds to the commitment, but for the generators: the claim, the first point, the points of the rounds, the two numbers. -/
def rest (params : Params M) (g0 : M) (proof : Proof M) (x v xi z : Fr) (us : List Fr) : M :=
  -(v • g0) + xi • proof.s + sent proof.rounds us -
    (proof.c * dot (coeffs us) ((List.range (2 ^ us.length)).map (x ^ ·)) * z) • params.u - proof.f • params.w

end Ipa

/-- Coefficients for the generators, for `w` and for `u`: what a prover knows of a point that it made from the parameters. -/
abbrev Ipa.Rep (n : Nat) := (Fin n → Fr) × Fr × Fr

/-- The point with these coefficients. -/
def Ipa.Rep.value (params : Params M) (a : Ipa.Rep params.n) : M :=
  dot (List.ofFn a.1) params.g + a.2.1 • params.w + a.2.2 • params.u

/-- Coefficients of the parameters. -/
def Ipa.Rep.params (k n : Nat) : Params (Ipa.Rep n) :=
  ⟨k, n, List.ofFn fun i => (Pi.single i 1, 0, 0), (0, 1, 0), (0, 0, 1)⟩

/-- The prover that sends points of which it knows coefficients. -/
def Ipa.Strategy.value (params : Params M) (σ : Ipa.Strategy (Ipa.Rep params.n)) : Ipa.Strategy M :=
  ⟨σ.s.value params, fun xi z us => ((σ.lr xi z us).1.value params, (σ.lr xi z us).2.value params), σ.last⟩

open WeierstrassCurve.Affine in
/-- The coordinates of the points of a curve. -/
noncomputable def Ipa.curveCoords {F : Type} [Field F] [DecidableEq F] (b : F) : Coords F (Pt b) where
  coords
    | .zero => none
    | .some x y _ => some (x, y)
  fromXY x y := by
    classical
    exact if h : (curve b).Nonsingular x y then some (.some x y h) else none

end Verif.Spec
