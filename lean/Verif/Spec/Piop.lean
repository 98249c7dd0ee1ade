import Verif.Model.PlonkVerifier
import Verif.Spec.Domain
import Verif.Spec.Copies

/-! The interactive argument of the verifier, with ideal commitments. -/

namespace Verif.Spec

open Plonk

/-- The expression has no selector, and its queries and challenges are known to the constraint
system. -/
def Queried (cs : CS) : Expr → Prop
  | .const _ => True
  | .selector _ => False
  | .fixed c r => (c, r) ∈ cs.fixedQueries
  | .advice c r => (c, r) ∈ cs.adviceQueries
  | .instance_ c r => (c, r) ∈ cs.instanceQueries
  | .challenge i => i < cs.numChallenges
  | .neg a => Queried cs a
  | .sum a b => Queried cs a ∧ Queried cs b
  | .product a b => Queried cs a ∧ Queried cs b
  | .scaled a _ => Queried cs a

/-- The column is queried in the current row. -/
def ColQueried (cs : CS) : Col → Prop
  | .advice c => (c, 0) ∈ cs.adviceQueries
  | .fixed c => (c, 0) ∈ cs.fixedQueries
  | .instance_ c => (c, 0) ∈ cs.instanceQueries

/-- A constraint system as it is in a verifying key: selectors are gone, everything is queried, the
queried columns exist. -/
structure Closed (cs : CS) : Prop where
  gates : ∀ gate ∈ cs.gates, ∀ e ∈ gate, Queried cs e
  inputs : ∀ l ∈ cs.lookups, ∀ e ∈ l.input, Queried cs e
  tables : ∀ l ∈ cs.lookups, ∀ e ∈ l.table, Queried cs e
  widths : ∀ l ∈ cs.lookups, l.input.length = l.table.length
  permutation : ∀ c ∈ cs.permutation, ColQueried cs c
  distinct : cs.permutation.Nodup
  advice : ∀ q ∈ cs.adviceQueries, q.1 < cs.numAdvice
  fixed : ∀ q ∈ cs.fixedQueries, q.1 < cs.numFixed
  inst : ∀ q ∈ cs.instanceQueries, q.1 < cs.numInstance

/-- Ideal commitments are the polynomials themselves, the constant coefficient first. -/
abbrev Poly := List Fr

/-- A query is true of the polynomials. -/
def Holds (q : Query Poly) : Prop :=
  match q.commitment with
  | .point p => polyAt p q.point = q.value
  | .msm ts => (ts.map fun t => t.1 * polyAt t.2 q.point).sum = q.value

/-- The numbers of commitments and scalars that are read for a key. -/
structure Shaped {C : Type} (key : Key C) (com : Commitments C) (e : Evals) : Prop where
  fixedColumns : key.fixed.length = key.cs.numFixed
  sigmaColumns : key.sigma.length = key.cs.permutation.length
  adviceColumns : com.advice.length = key.cs.numAdvice
  permuted : com.permuted.length = key.cs.lookups.length
  products : com.products.length = (chunks (key.cs.degree - 2) key.cs.permutation).length
  lookupProducts : com.lookupProducts.length = key.cs.lookups.length
  pieces : com.pieces.length = key.domain.quotientPolyDegree
  advice : e.advice.length = key.cs.adviceQueries.length
  fixed : e.fixed.length = key.cs.fixedQueries.length
  sigma : e.sigma.length = key.sigma.length
  sets : e.sets.length = com.products.length
  lasts : ∀ (i : Nat) (h : i < e.sets.length), e.sets[i].last.isSome = true ↔ i + 1 < e.sets.length
  lookups : e.lookups.length = key.cs.lookups.length

/-- The column a list of public inputs stands for: values beyond the last row are added to the first
rows again. With at most `n` values this is the list, padded with zeros. -/
def foldedColumn (n : Nat) (col : List Fr) (r : Nat) : Fr :=
  ∑ i ∈ Finset.range col.length, if i % n = r then col.getD i 0 else 0

/-- The table the polynomials describe: row `r` is their value at the `r`-th power of the root of
unity. -/
def gridOf (d : Domain) (n : Nat) (instances : List (List Fr)) (fixed advice : List Poly)
    (user : List Fr) : Grid where
  advice c r := polyAt (advice.getD c []) (d.omega ^ r)
  fixed c r := polyAt (fixed.getD c []) (d.omega ^ r)
  instance_ c r := foldedColumn n (instances.getD c []) r
  selector _ _ := false
  challenge i := user.getD i 0

/-- The permutation polynomials of a key describe a mapping of cells. -/
def SigmaOf (d : Domain) (m n : Nat) (sigma : List Poly) (mapping : List (List (Nat × Nat))) : Prop :=
  ∀ i < m, ∀ j < n, ∀ i' j', entry mapping (i, j) = some (i', j') →
    polyAt (sigma.getD i []) (d.omega ^ j) = deltaFr ^ i' * d.omega ^ j'

/-- What a prover sends after each challenge; the advice columns are sent before. -/
structure Strategy where
  permuted : (theta : Fr) → List (Poly × Poly)
  products : (theta beta gamma : Fr) → List Poly
  lookupProducts : (theta beta gamma : Fr) → List Poly
  random : (theta beta gamma : Fr) → Poly
  pieces : (theta beta gamma y : Fr) → List Poly

/-- All commitments, once the challenges are drawn. -/
def Strategy.commitments (s : Strategy) (advice : List Poly) (theta beta gamma y : Fr) :
    Commitments Poly where
  advice := advice
  permuted := s.permuted theta
  products := s.products theta beta gamma
  lookupProducts := s.lookupProducts theta beta gamma
  random := s.random theta beta gamma
  pieces := s.pieces theta beta gamma y

/-- With these challenges there are scalars with which the verifier, holding a key and parameters of
`n` rows, ends with queries that are all true. -/
def Convinces (key : Key Poly) (n : Nat) (instances : List (List Fr)) (com : Commitments Poly)
    (ch : Challenges) : Prop :=
  ∃ e queries, Shaped key com e ∧ claims key n instances com ch e = .ok queries ∧
    ∀ q ∈ queries, Holds q

/-- No polynomial has more than `N` coefficients. -/
structure Bounded (N : Nat) (key : Key Poly) (advice : List Poly) (s : Strategy) : Prop where
  fixed : ∀ p ∈ key.fixed, p.length ≤ N
  sigma : ∀ p ∈ key.sigma, p.length ≤ N
  advice : ∀ p ∈ advice, p.length ≤ N
  permuted : ∀ t, ∀ p ∈ s.permuted t, p.1.length ≤ N ∧ p.2.length ≤ N
  products : ∀ t b g, ∀ p ∈ s.products t b g, p.length ≤ N
  lookupProducts : ∀ t b g, ∀ p ∈ s.lookupProducts t b g, p.length ≤ N
  pieces : ∀ t b g y, ∀ p ∈ s.pieces t b g y, p.length ≤ N

end Verif.Spec
