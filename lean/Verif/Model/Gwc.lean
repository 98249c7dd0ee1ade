import Verif.Model.Shplonk

/-!
The other multi-opening argument: `halo2_proofs/src/poly/kzg/multiopen/gwc.rs` with `gwc/prover.rs` and
`gwc/verifier.rs`.
-/

namespace Verif.Gwc

open Plonk Shplonk

variable {ρ T : Type}

/-- A query is pushed to the entry of its point, or a new entry is pushed. Models
halo2_proofs/src/poly/kzg/multiopen/gwc.rs lines 41-51. -/
def addQuery (q : Claim ρ T) : List (Fr × List (Claim ρ T)) → List (Fr × List (Claim ρ T))
  | [] => [(q.point, [q])]
  | e :: es => if e.1 = q.point then (e.1, e.2 ++ [q]) :: es else e :: addQuery q es

/-- `construct_intermediate_sets`: the points with their queries. Models
halo2_proofs/src/poly/kzg/multiopen/gwc.rs lines 36-61. -/
def groups (queries : List (Claim ρ T)) : List (Fr × List (Claim ρ T)) := queries.foldl (fun m q => addQuery q m) []

/-! ### Verifier -/

variable {G : Type} [AddCommGroup G] [Module Fr G]

/-- A commitment and a value, multiplied by a power of `v`. Models
halo2_proofs/src/poly/kzg/multiopen/gwc/verifier.rs lines 88-106. -/
def term (z : Fr) (c : Claim ρ (Committed G) × Fr) : Except Panic (List (Fr × G) × Fr) :=
  if c.1.point ≠ z then .error .assert else
  let msm := match c.1.object with
    | .point p => [(c.2, p)]
    | .msm ts => scale ts c.2
  .ok (msm, c.2 * c.1.value)

/-- The sums of the loop: `commitment_multi`, `eval_multi`, `witness_with_aux`, `witness`. Models
halo2_proofs/src/poly/kzg/multiopen/gwc/verifier.rs lines 72-76. -/
structure Sums (G : Type) where
  commitment : List (Fr × G) := []
  eval : Fr := 0
  aux : List (Fr × G) := []
  witness : List (Fr × G) := []

/-- The body of the loop. Models halo2_proofs/src/poly/kzg/multiopen/gwc/verifier.rs lines 78-119. -/
def step (v : Fr) (sums : Sums G) (p : ((Fr × List (Claim ρ (Committed G))) × G) × Fr) : Except Panic (Sums G) := do
  let z := p.1.1.1
  let queries := p.1.1.2
  if queries = [] then .error .assert else
  let terms ← (withPowers v queries).mapM (term z)
  let batch ← reduce (fun (a b : List (Fr × G) × Fr) => (a.1 ++ b.1, a.2 + b.2)) terms
  return ⟨sums.commitment ++ scale batch.1 p.2, sums.eval + p.2 * batch.2, sums.aux ++ [(p.2 * z, p.1.2)],
    sums.witness ++ [(p.2, p.1.2)]⟩

/-- `VerifierGWC::verify_proof` for the challenges and points read from the proof (as many points as there are groups):
the left and the right sum of the guard. `g0` is `params.g[0]`. Models
halo2_proofs/src/poly/kzg/multiopen/gwc/verifier.rs lines 48-129, with an empty accumulator. -/
def verify (g0 : G) (queries : List (Claim ρ (Committed G))) (v : Fr) (ws : List G) (u : Fr) :
    Except Panic (List (Fr × G) × List (Fr × G)) := do
  let sums ← (withPowers u ((groups queries).zip ws)).foldlM (step v) {}
  return (sums.witness, sums.aux ++ sums.commitment ++ [(sums.eval, -g0)])

variable {G₂ GT : Type} [AddCommGroup G₂] [Module Fr G₂] [AddCommGroup GT] [Module Fr GT] [DecidableEq GT]

/-- The opening is accepted. Models halo2_proofs/src/poly/kzg/strategy.rs lines 142-154. -/
def accepts (pairing : G →ₗ[Fr] G₂ →ₗ[Fr] GT) (g0 : G) (g2 sG2 : G₂)
    (queries : List (Claim ρ (Committed G))) (v : Fr) (ws : List G) (u : Fr) : Except Panic Bool := do
  let (left, right) ← verify g0 queries v ws u
  check pairing g2 sG2 left right

/-! ### Prover -/

/-- The polynomial for a point. Models halo2_proofs/src/poly/kzg/multiopen/gwc/prover.rs lines 61-82; the value of
a query is that of its polynomial (poly/query.rs lines 51-53). -/
def openAt (v : Fr) (group : Fr × List (Claim ρ (List Fr))) : Except Panic (List Fr) := do
  let terms ← (withPowers v group.2).mapM fun (q : Claim ρ (List Fr) × Fr) =>
    if q.1.point ≠ group.1 then .error .assert
    else .ok (mulPoly q.1.object q.2, evalPolynomial q.1.object q.1.point * q.2)
  let (poly, eval) ← match terms with
    | [] => .error .unwrap
    | t :: ts => ts.foldlM (fun (a b : List Fr × Fr) => do return (← addPoly a.1 b.1, a.2 + b.2)) t
  let poly ← subConst poly eval
  kateDivision poly group.1

/-- `ProverGWC::create_proof`: the polynomials that are committed to. Models
halo2_proofs/src/poly/kzg/multiopen/gwc/prover.rs lines 42-91. -/
def openAll (queries : List (Claim ρ (List Fr))) (v : Fr) : Except Panic (List (List Fr)) :=
  (groups queries).mapM (openAt v)

end Verif.Gwc
