import Verif.Model.Fr

/-!
halo2 expressions and the constraint system builder: `halo2_proofs/src/plonk/circuit.rs`.
-/

namespace Verif

/-- A column. Models halo2_proofs/src/plonk/circuit.rs lines 160-183 (`Column<Any>`); the phase of
an advice column is kept in the constraint system. -/
inductive Col
  | advice (i : Nat)
  | fixed (i : Nat)
  | instance_ (i : Nat)
  deriving DecidableEq, Repr

/-- `Selector(index, is_simple)`. Models halo2_proofs/src/plonk/circuit.rs lines 382-395. -/
structure Selector where
  index : Nat
  simple : Bool
  deriving DecidableEq, Repr

/-- `Expression<Fr>`. Models halo2_proofs/src/plonk/circuit.rs lines 855-880. Queries carry the
column index and the rotation; the query index is determined by the constraint system's lists of
queries and is left out. -/
inductive Expr
  | const (c : Fr)
  | selector (s : Selector)
  | fixed (col : Nat) (rot : Int)
  | advice (col : Nat) (rot : Int)
  | instance_ (col : Nat) (rot : Int)
  | challenge (i : Nat)
  | neg (a : Expr)
  | sum (a b : Expr)
  | product (a b : Expr)
  | scaled (a : Expr) (f : Fr)
  deriving DecidableEq

namespace Expr

/-- Models halo2_proofs/src/plonk/circuit.rs lines 1320-1325. -/
instance : Neg Expr := ⟨neg⟩
/-- Models halo2_proofs/src/plonk/circuit.rs lines 1327-1335; the panic on simple selectors is
`WellFormed` below. -/
instance : Add Expr := ⟨sum⟩
/-- Models halo2_proofs/src/plonk/circuit.rs lines 1337-1345. -/
instance : Sub Expr := ⟨fun a b => sum a (neg b)⟩
/-- Models halo2_proofs/src/plonk/circuit.rs lines 1347-1355. -/
instance : Mul Expr := ⟨product⟩

/-- `degree()`. Models halo2_proofs/src/plonk/circuit.rs lines 1183-1196. -/
def degree : Expr → Nat
  | const _ => 0
  | selector _ => 1
  | fixed _ _ => 1
  | advice _ _ => 1
  | instance_ _ _ => 1
  | challenge _ => 0
  | neg a => a.degree
  | sum a b => max a.degree b.degree
  | product a b => a.degree + b.degree
  | scaled a _ => a.degree

/-- `contains_simple_selector()`. Models halo2_proofs/src/plonk/circuit.rs lines 1220-1233. -/
def containsSimple : Expr → Bool
  | const _ => false
  | selector s => s.simple
  | fixed _ _ => false
  | advice _ _ => false
  | instance_ _ _ => false
  | challenge _ => false
  | neg a => a.containsSimple
  | sum a b => a.containsSimple || b.containsSimple
  | product a b => a.containsSimple || b.containsSimple
  | scaled a _ => a.containsSimple

/-- Building the expression did not panic: no simple selector under a sum, no product of two
expressions with simple selectors. Models the panics of halo2_proofs/src/plonk/circuit.rs lines
1330, 1340 and 1350. -/
def wellFormed : Expr → Bool
  | neg a => a.wellFormed
  | sum a b => a.wellFormed && b.wellFormed && !a.containsSimple && !b.containsSimple
  | product a b => a.wellFormed && b.wellFormed && !(a.containsSimple && b.containsSimple)
  | scaled a _ => a.wellFormed
  | _ => true

end Expr

/-- The values of all columns of a circuit with `n` rows, and the challenges. -/
structure Grid where
  advice : Nat → Nat → Fr
  fixed : Nat → Nat → Fr
  instance_ : Nat → Nat → Fr
  selector : Nat → Nat → Bool
  challenge : Nat → Fr

/-- Row `row` moved by `rot`, cyclically. Models halo2_proofs/src/dev/util.rs / dev.rs
`(row_i + n + rotation) % n` as used in dev.rs lines 740-800. -/
def rotate (n row : Nat) (rot : Int) : Nat := (((row : Int) + rot) % (n : Int)).toNat

/-- Evaluation of an expression at a row. Models `Expression::evaluate` (circuit.rs lines 886-990)
with the queries answered by the columns. A selector counts as 1 or 0 (before compression). -/
def Expr.eval (n : Nat) (g : Grid) (row : Nat) : Expr → Fr
  | const c => c
  | selector s => if g.selector s.index row then 1 else 0
  | fixed c r => g.fixed c (rotate n row r)
  | advice c r => g.advice c (rotate n row r)
  | instance_ c r => g.instance_ c (rotate n row r)
  | challenge i => g.challenge i
  | neg a => - a.eval n g row
  | sum a b => a.eval n g row + b.eval n g row
  | product a b => a.eval n g row * b.eval n g row
  | scaled a f => a.eval n g row * f

/-- A lookup argument. Models halo2_proofs/src/plonk/lookup.rs lines 9-13. -/
structure Lookup where
  input : List Expr
  table : List Expr
  deriving DecidableEq

/-- `ConstraintSystem`. Models halo2_proofs/src/plonk/circuit.rs lines 1540-1582. Left out:
annotations, `constants` and `minimum_degree` (unused by this circuit), `selector_map` (filled by
selector compression), and `num_advice_queries` (see `numAdviceQueries`). -/
structure CS where
  numFixed : Nat := 0
  numAdvice : Nat := 0
  numInstance : Nat := 0
  numSelectors : Nat := 0
  numChallenges : Nat := 0
  advicePhase : List Nat := []
  challengePhase : List Nat := []
  gates : List (List Expr) := []
  adviceQueries : List (Nat × Int) := []
  instanceQueries : List (Nat × Int) := []
  fixedQueries : List (Nat × Int) := []
  permutation : List Col := []
  lookups : List Lookup := []
  deriving DecidableEq

namespace CS

/-- Adding a query unless it is already there. Models halo2_proofs/src/plonk/circuit.rs lines
1751-1796. -/
def addQuery (qs : List (Nat × Int)) (q : Nat × Int) : List (Nat × Int) :=
  if q ∈ qs then qs else qs ++ [q]

/-- The number of distinct queries of an advice column. Models the counter `num_advice_queries`
kept by halo2_proofs/src/plonk/circuit.rs line 1777. -/
def numAdviceQueries (cs : CS) (c : Nat) : Nat := (cs.adviceQueries.filter (fun q => q.1 == c)).length

/-- `required_degree` of the lookup argument. Models halo2_proofs/src/plonk/lookup.rs lines
40-95. -/
def lookupDegree (l : Lookup) : Nat :=
  max 4 (2 + (l.input.map Expr.degree).foldl max 1 + (l.table.map Expr.degree).foldl max 1)

/-- `degree()`. Models halo2_proofs/src/plonk/circuit.rs lines 2230-2258 (the permutation argument
always requires 3). -/
def degree (cs : CS) : Nat :=
  max (max (max 3 ((cs.lookups.map lookupDegree).max?.getD 1))
    ((cs.gates.flatten.map Expr.degree).max?.getD 0)) 1

/-- `blinding_factors()`. Models halo2_proofs/src/plonk/circuit.rs lines 2262-2287. -/
def blindingFactors (cs : CS) : Nat :=
  max 3 (((List.range cs.numAdvice).map cs.numAdviceQueries).max?.getD 1) + 1 + 1

/-- `minimum_rows()`. Models halo2_proofs/src/plonk/circuit.rs lines 2291-2299. -/
def minimumRows (cs : CS) : Nat := cs.blindingFactors + 1 + 1 + 1

/-- Rows a circuit may use. Models `usable_rows` in halo2_proofs/src/plonk/keygen.rs
(`0..n - (blinding_factors + 1)`). -/
def usableRows (cs : CS) (n : Nat) : Nat := n - (cs.blindingFactors + 1)

end CS

/-- The builder monad of `configure`. -/
abbrev Conf := StateM CS

namespace Conf

/-- Models halo2_proofs/src/plonk/circuit.rs lines 2148-2165 (the assertion that the previous phase
exists is not modelled; it holds as the first column is in the first phase). -/
def adviceColumnIn (phase : Nat) : Conf Nat := fun cs =>
  (cs.numAdvice, { cs with numAdvice := cs.numAdvice + 1, advicePhase := cs.advicePhase ++ [phase] })

/-- Models halo2_proofs/src/plonk/circuit.rs lines 2143-2145. -/
def adviceColumn : Conf Nat := adviceColumnIn 0

/-- Models halo2_proofs/src/plonk/circuit.rs lines 2133-2140 and 2098-2102. -/
def fixedColumn : Conf Nat := fun cs => (cs.numFixed, { cs with numFixed := cs.numFixed + 1 })

/-- Models halo2_proofs/src/plonk/circuit.rs lines 2168-2175. -/
def instanceColumn : Conf Nat := fun cs =>
  (cs.numInstance, { cs with numInstance := cs.numInstance + 1 })

/-- Models halo2_proofs/src/plonk/circuit.rs lines 2083-2087. -/
def selector : Conf Selector := fun cs =>
  (⟨cs.numSelectors, true⟩, { cs with numSelectors := cs.numSelectors + 1 })

/-- Models halo2_proofs/src/plonk/circuit.rs lines 2091-2095. -/
def complexSelector : Conf Selector := fun cs =>
  (⟨cs.numSelectors, false⟩, { cs with numSelectors := cs.numSelectors + 1 })

/-- Models halo2_proofs/src/plonk/circuit.rs lines 2178-2192. -/
def challengeUsableAfter (phase : Nat) : Conf Nat := fun cs =>
  (cs.numChallenges,
   { cs with numChallenges := cs.numChallenges + 1, challengePhase := cs.challengePhase ++ [phase] })

/-- `query_advice`. Models halo2_proofs/src/plonk/circuit.rs lines 2405-2413. -/
def queryAdvice (col : Nat) (rot : Int) : Conf Expr := fun cs =>
  (.advice col rot, { cs with adviceQueries := CS.addQuery cs.adviceQueries (col, rot) })

/-- `query_fixed`. Models halo2_proofs/src/plonk/circuit.rs lines 2395-2402. -/
def queryFixed (col : Nat) (rot : Int) : Conf Expr := fun cs =>
  (.fixed col rot, { cs with fixedQueries := CS.addQuery cs.fixedQueries (col, rot) })

/-- `enable_equality`. Models halo2_proofs/src/plonk/circuit.rs lines 1696-1700 and
halo2_proofs/src/plonk/permutation.rs lines 68-72. -/
def enableEquality (c : Col) : Conf Unit := fun cs =>
  let cs : CS := match c with
    | .advice i => { cs with adviceQueries := CS.addQuery cs.adviceQueries (i, 0) }
    | .fixed i => { cs with fixedQueries := CS.addQuery cs.fixedQueries (i, 0) }
    | .instance_ i => { cs with instanceQueries := CS.addQuery cs.instanceQueries (i, 0) }
  ((), if c ∈ cs.permutation then cs else { cs with permutation := cs.permutation ++ [c] })

/-- `create_gate`. Models halo2_proofs/src/plonk/circuit.rs lines 1866-1895; names and the lists of
queried cells are left out. -/
def createGate (polys : Conf (List Expr)) : Conf Unit := do
  let ps ← polys
  modify fun cs => { cs with gates := cs.gates ++ [ps] }

/-- `lookup` with one pair. Models halo2_proofs/src/plonk/circuit.rs lines 1706-1729. -/
def lookup (input : Conf Expr) (table : Nat) : Conf Unit := do
  let i ← input
  let t ← queryFixed table 0
  modify fun cs => { cs with lookups := cs.lookups ++ [⟨[i], [t]⟩] }

end Conf

/-- The value of a cell. -/
def Grid.cell (g : Grid) : Col × Nat → Fr
  | (.advice i, r) => g.advice i r
  | (.fixed i, r) => g.fixed i r
  | (.instance_ i, r) => g.instance_ i r

/-- An assignment of all columns satisfies the constraint system: every gate vanishes on every row,
every lookup holds on the usable rows, every pair of cells tied by a copy constraint is equal.

Models halo2_proofs/src/dev.rs `verify_at_rows` lines 690-1000, without its lint about unassigned
cells, and with the gates also on the unusable rows (as the quotient polynomial requires). -/
structure Satisfied (cs : CS) (n : Nat) (g : Grid) (copies : List ((Col × Nat) × (Col × Nat))) :
    Prop where
  gates : ∀ gate ∈ cs.gates, ∀ p ∈ gate, ∀ row, row < n → p.eval n g row = 0
  lookups : ∀ l ∈ cs.lookups, ∀ row, row < cs.usableRows n → ∃ row', row' < cs.usableRows n ∧
    l.input.map (fun e => e.eval n g row) = l.table.map (fun e => e.eval n g row')
  copies : ∀ p ∈ copies, g.cell p.1 = g.cell p.2

end Verif
