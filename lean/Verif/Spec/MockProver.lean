import Verif.Model.MockProver
import Verif.Spec.Selectors

/-! What the checks of the mock prover are compared with: full assignments that extend what a circuit
assigned, and the conventions the mock prover wants kept. -/

namespace Verif.Spec

/-- The calls of a circuit to its layouter carried out by the floor planner alone. -/
def assembly : List Step → Assembly → Except SynthErr Assembly
  | [], a => .ok a
  | .table col vals :: rest, a => do assembly rest (← a.table col vals)
  | .region os :: rest, a => do assembly rest (← a.region os)
  | .constrainInstance c i r :: rest, a => do assembly rest (← a.constrainInstance c i r)

/-- What the circuit with constraint system `cs` assigns in `n` rows. -/
def assigned (cs : CS) (n : Nat) (steps : List Step) : Except SynthErr Assembly :=
  assembly steps { usable := cs.usableRows n, permutation := cs.permutation }

/-- `g` is a full assignment of `n` rows that agrees with what the circuit assigned. The advice cells
of the unusable rows, where a prover puts random numbers, are arbitrary. -/
structure Extends (cs : CS) (n : Nat) (a : Assembly) (ch : Nat → Fr) (inst : Nat → List Fr) (g : Grid) :
    Prop where
  advice : ∀ c r, r < cs.usableRows n → g.advice c r = a.advice c r
  fixed : ∀ c r, g.fixed c r = a.fixed c r
  selector : ∀ s r, g.selector s r = a.selector s r
  instance_ : ∀ i r, g.instance_ i r = (inst i).getD r 0
  challenge : ∀ i, g.challenge i = ch i

/-- The regions among the calls. -/
def blocks : List Step → List (List Op)
  | [] => []
  | .region os :: rest => os :: blocks rest
  | _ :: rest => blocks rest

/-- The cells an expression refers to, with the rotation. -/
def queriesIn : Expr → List (Col × Int)
  | .fixed c r => [(.fixed c, r)]
  | .advice c r => [(.advice c, r)]
  | .instance_ c r => [(.instance_ c, r)]
  | .neg a => queriesIn a
  | .sum a b => queriesIn a ++ queriesIn b
  | .product a b => queriesIn a ++ queriesIn b
  | .scaled a _ => queriesIn a
  | _ => []

/-- The region `b` that starts at row `s` assigns a value to the cell. -/
def AssignsIn (b : List Op) (s : Nat) (cell : Col × Nat) : Prop :=
  ∃ c o, cell = (.advice c, s + o) ∧
    ((∃ v, Op.advice c o v ∈ b) ∨ ∃ i r v, Op.fromInstance i r c o v ∈ b)

/-- The convention about regions: where a region enables a selector, the same region assigns every cell
that a gate with this selector refers to. -/
def Tidy (cs : CS) (n : Nat) (steps : List Step) (a : Assembly) : Prop :=
  ∀ p ∈ (blocks steps).zip a.starts, ∀ s o, Op.enable s o ∈ p.1 →
    ∀ gate ∈ cs.gates, s ∈ gate.flatMap selectorsIn → ∀ q ∈ gate.flatMap queriesIn,
      AssignsIn p.1 p.2 (q.1, rotate n (p.2 + o) q.2)

/-- A cell got a value: from a region, from a table, or as public input. -/
def Has (steps : List Step) (a : Assembly) : Col × Nat → Prop
  | (.advice c, r) => ∃ p ∈ (blocks steps).zip a.starts, AssignsIn p.1 p.2 (.advice c, r)
  | (.fixed c, r) => r < a.usable ∧ ∃ vals, Step.table c vals ∈ steps
  | (.instance_ _, _) => True

/-- The lookups refer to advice cells of usable rows only. -/
def LookupsInside (cs : CS) (n : Nat) : Prop :=
  ∀ l ∈ cs.lookups, ∀ e ∈ l.input ++ l.table, ∀ c rot, (Col.advice c, rot) ∈ queriesIn e →
    ∀ row, row < cs.usableRows n → rotate n row rot < cs.usableRows n

/-- The expression vanishes where the selector `s` is off: the selector is a factor of it. -/
inductive Guards (s : Selector) : Expr → Prop
  | self : Guards s (.selector s)
  | left {a b : Expr} : Guards s a → Guards s (.product a b)
  | right {a b : Expr} : Guards s b → Guards s (.product a b)
  | neg {a : Expr} : Guards s a → Guards s (.neg a)
  | scaled {a : Expr} {f : Fr} : Guards s a → Guards s (.scaled a f)

/-- Every polynomial of every gate has a selector as a factor. -/
def Guarded (cs : CS) : Prop := ∀ gate ∈ cs.gates, ∀ p ∈ gate, ∃ s, Guards s p

/-- The circuit enables selectors under the kind (simple or complex) they were made with. -/
def SameSelectors (simple : Nat → Bool) (steps : List Step) : Prop :=
  ∀ b ∈ blocks steps, ∀ s o, Op.enable s o ∈ b → s.simple = simple s.index

/-- Of two cells tied by a copy constraint both have got a value or neither. -/
def CopiesAlike (steps : List Step) (a : Assembly) : Prop :=
  ∀ p ∈ a.copies, (Has steps a p.1 ↔ Has steps a p.2)

/-- What the functions that build a constraint system keep to: expressions without panics, columns that
exist, distinct columns in the permutation, lookups with as many inputs as tables. -/
structure Built (cs : CS) (simple : Nat → Bool) : Prop where
  sane : Sane cs simple
  degree : cs.degree < P
  nodup : cs.permutation.Nodup
  columns : ∀ i, .fixed i ∈ cs.permutation → i < cs.numFixed
  lookups : ∀ l ∈ cs.lookups, l.table.length = l.input.length

/-- The failures in a verdict. -/
def failures : Except (List Failure) Unit → List Failure
  | .ok _ => []
  | .error l => l

end Verif.Spec
