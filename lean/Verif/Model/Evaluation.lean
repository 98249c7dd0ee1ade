import Verif.Model.Plonk
import Verif.Model.Compile

/-!
The prover's compiled evaluation of gates and lookups: `halo2_proofs/src/plonk/evaluation.rs`.
-/

namespace Verif

/-- `get_rotation_idx` with `rot_scale = 1` (the only value used). Models
halo2_proofs/src/plonk/evaluation.rs lines 32-34. The casts to `i32` are exact: a domain has at most
2^28 rows. -/
def rotationIdx (idx : Nat) (rot : Int) (size : Nat) : Nat := (((idx : Int) + rot) % (size : Int)).toNat

/-- `ValueSource`. Models halo2_proofs/src/plonk/evaluation.rs lines 37-61. -/
inductive ValueSource
  | constant (i : Nat)
  | intermediate (i : Nat)
  | fixed (column rotation : Nat)
  | advice (column rotation : Nat)
  | instance_ (column rotation : Nat)
  | challenge (i : Nat)
  | beta
  | gamma
  | theta
  | y
  | previousValue
  deriving DecidableEq, Repr

namespace ValueSource

/-- The position of the variant and its fields. Models the derived `PartialOrd` of
halo2_proofs/src/plonk/evaluation.rs line 37. -/
def key : ValueSource → Nat × Nat × Nat
  | constant i => (0, i, 0)
  | intermediate i => (1, i, 0)
  | fixed c r => (2, c, r)
  | advice c r => (3, c, r)
  | instance_ c r => (4, c, r)
  | challenge i => (5, i, 0)
  | beta => (6, 0, 0)
  | gamma => (7, 0, 0)
  | theta => (8, 0, 0)
  | y => (9, 0, 0)
  | previousValue => (10, 0, 0)

/-- `a <= b`: variants in their order, then fields from left to right. Models the derived
`PartialOrd` of halo2_proofs/src/plonk/evaluation.rs line 37. -/
def le (a b : ValueSource) : Bool :=
  let (a0, a1, a2) := a.key
  let (b0, b1, b2) := b.key
  decide (a0 < b0 ∨ a0 = b0 ∧ (a1 < b1 ∨ a1 = b1 ∧ a2 ≤ b2))

end ValueSource

/-- What a graph is evaluated on: the values of the columns (one list per column), the challenges.
Models the arguments of halo2_proofs/src/plonk/evaluation.rs lines 755-770. -/
structure GraphInput where
  fixed : List (List Fr)
  advice : List (List Fr)
  instance_ : List (List Fr)
  challenges : List Fr
  beta : Fr
  gamma : Fr
  theta : Fr
  y : Fr
  previous : Fr

/-- `v[i]`. -/
def indexList (v : List α) (i : Nat) : Except Panic α :=
  match v[i]? with
  | some x => .ok x
  | none => .error .index

/-- `columns[column][rotations[rotation]]`. Models halo2_proofs/src/plonk/evaluation.rs lines 89-97. -/
def indexColumn (columns : List (List Fr)) (rotations : List Nat) (column rotation : Nat) :
    Except Panic Fr :=
  match indexList columns column with
  | .error e => .error e
  | .ok col =>
    match indexList rotations rotation with
    | .error e => .error e
    | .ok row => indexList col row

/-- `ValueSource::get`. Models halo2_proofs/src/plonk/evaluation.rs lines 71-106. -/
def ValueSource.get (rotations : List Nat) (constants intermediates : List Fr) (x : GraphInput) :
    ValueSource → Except Panic Fr
  | constant i => indexList constants i
  | intermediate i => indexList intermediates i
  | fixed c r => indexColumn x.fixed rotations c r
  | advice c r => indexColumn x.advice rotations c r
  | instance_ c r => indexColumn x.instance_ rotations c r
  | challenge i => indexList x.challenges i
  | beta => .ok x.beta
  | gamma => .ok x.gamma
  | theta => .ok x.theta
  | y => .ok x.y
  | previousValue => .ok x.previous

/-- `Calculation`. Models halo2_proofs/src/plonk/evaluation.rs lines 109-127. -/
inductive Calculation
  | add (a b : ValueSource)
  | sub (a b : ValueSource)
  | mul (a b : ValueSource)
  | square (a : ValueSource)
  | double (a : ValueSource)
  | negate (a : ValueSource)
  | horner (start : ValueSource) (parts : List ValueSource) (factor : ValueSource)
  | store (a : ValueSource)
  deriving DecidableEq, Repr

/-- The loop of `Horner`. Models halo2_proofs/src/plonk/evaluation.rs lines 172-174. -/
def hornerLoop (get : ValueSource → Except Panic Fr) (factor : Fr) :
    Fr → List ValueSource → Except Panic Fr
  | value, [] => .ok value
  | value, part :: parts =>
    match get part with
    | .error e => .error e
    | .ok v => hornerLoop get factor (value * factor + v) parts

/-- `Calculation::evaluate`. Models halo2_proofs/src/plonk/evaluation.rs lines 131-180. -/
def Calculation.evaluate (get : ValueSource → Except Panic Fr) : Calculation → Except Panic Fr
  | add a b => do return (← get a) + (← get b)
  | sub a b => do return (← get a) - (← get b)
  | mul a b => do return (← get a) * (← get b)
  | square a => do let v ← get a; return v * v
  | double a => do let v ← get a; return v + v
  | negate a => do return - (← get a)
  | horner start parts factor => do
    let f ← get factor
    let v ← get start
    hornerLoop get f v parts
  | store a => get a

/-- `GraphEvaluator`; a calculation is stored with its target. Models
halo2_proofs/src/plonk/evaluation.rs lines 191-219, 580-593 (`default`). -/
structure Graph where
  constants : List Fr := [0, 1, 2]
  rotations : List Int := []
  calculations : List (Calculation × Nat) := []
  numIntermediates : Nat := 0

namespace Graph

/-- `add_rotation`. Models halo2_proofs/src/plonk/evaluation.rs lines 598-607. -/
def addRotation (g : Graph) (rot : Int) : Nat × Graph :=
  match g.rotations.findIdx? (· == rot) with
  | some i => (i, g)
  | none => (g.rotations.length, { g with rotations := g.rotations ++ [rot] })

/-- `add_constant`. Models halo2_proofs/src/plonk/evaluation.rs lines 610-619. -/
def addConstant (g : Graph) (c : Fr) : ValueSource × Graph :=
  match g.constants.findIdx? (· == c) with
  | some i => (.constant i, g)
  | none => (.constant g.constants.length, { g with constants := g.constants ++ [c] })

/-- `add_calculation`. Models halo2_proofs/src/plonk/evaluation.rs lines 625-642. -/
def addCalculation (g : Graph) (c : Calculation) : ValueSource × Graph :=
  match g.calculations.find? (fun i => i.1 == c) with
  | some i => (.intermediate i.2, g)
  | none => (.intermediate g.numIntermediates,
      { g with calculations := g.calculations ++ [(c, g.numIntermediates)],
               numIntermediates := g.numIntermediates + 1 })

/-- The end of a sum that is not a subtraction. Models halo2_proofs/src/plonk/evaluation.rs lines
700-708. -/
def addSum (g : Graph) (a b : ValueSource) : ValueSource × Graph :=
  if a = .constant 0 then (b, g)
  else if b = .constant 0 then (a, g)
  else if a.le b then g.addCalculation (.add a b)
  else g.addCalculation (.add b a)

/-- The end of a subtraction. Models halo2_proofs/src/plonk/evaluation.rs lines 689-695. -/
def addDifference (g : Graph) (a b : ValueSource) : ValueSource × Graph :=
  if a = .constant 0 then g.addCalculation (.negate b)
  else if b = .constant 0 then (a, g)
  else g.addCalculation (.sub a b)

/-- The end of a product. Models halo2_proofs/src/plonk/evaluation.rs lines 715-731. -/
def addProduct (g : Graph) (a b : ValueSource) : ValueSource × Graph :=
  if a = .constant 0 ∨ b = .constant 0 then (.constant 0, g)
  else if a = .constant 1 then (b, g)
  else if b = .constant 1 then (a, g)
  else if a = .constant 2 then g.addCalculation (.double b)
  else if b = .constant 2 then g.addCalculation (.double a)
  else if a = b then g.addCalculation (.square a)
  else if a.le b then g.addCalculation (.mul a b)
  else g.addCalculation (.mul b a)

/-- The end of a negation. Models halo2_proofs/src/plonk/evaluation.rs lines 677-680. -/
def addNegation (g : Graph) (a : ValueSource) : ValueSource × Graph :=
  if a = .constant 0 then (a, g) else g.addCalculation (.negate a)

/-- `add_expression`; a selector is `unreachable!()`. Models halo2_proofs/src/plonk/evaluation.rs
lines 645-745. -/
def addExpression : Expr → Graph → Except Panic (ValueSource × Graph)
  | .const c, g => .ok (g.addConstant c)
  | .selector _, _ => .error .unreachable
  | .fixed c r, g =>
    let (i, g) := g.addRotation r
    .ok (g.addCalculation (.store (.fixed c i)))
  | .advice c r, g =>
    let (i, g) := g.addRotation r
    .ok (g.addCalculation (.store (.advice c i)))
  | .instance_ c r, g =>
    let (i, g) := g.addRotation r
    .ok (g.addCalculation (.store (.instance_ c i)))
  | .challenge i, g => .ok (g.addCalculation (.store (.challenge i)))
  | .neg (.const c), g => .ok (g.addConstant (-c))
  | .neg a, g => do
    let (ra, g) ← addExpression a g
    return g.addNegation ra
  | .sum a (.neg b), g => do
    let (ra, g) ← addExpression a g
    let (rb, g) ← addExpression b g
    return g.addDifference ra rb
  | .sum a b, g => do
    let (ra, g) ← addExpression a g
    let (rb, g) ← addExpression b g
    return g.addSum ra rb
  | .product a b, g => do
    let (ra, g) ← addExpression a g
    let (rb, g) ← addExpression b g
    return g.addProduct ra rb
  | .scaled a f, g =>
    if f = 0 then .ok (.constant 0, g)
    else if f = 1 then addExpression a g
    else do
      let (c, g) := g.addConstant f
      let (ra, g) ← addExpression a g
      return g.addCalculation (.mul ra c)

/-- Several expressions. Models halo2_proofs/src/plonk/evaluation.rs lines 230-234, 247-250. -/
def addExpressions : List Expr → Graph → Except Panic (List ValueSource × Graph)
  | [], g => .ok ([], g)
  | e :: es, g => do
    let (r, g) ← addExpression e g
    let (rs, g) ← addExpressions es g
    return (r :: rs, g)

/-- The graph of the gates. Models halo2_proofs/src/plonk/evaluation.rs lines 227-240. -/
def ofGates (gates : List (List Expr)) : Except Panic Graph := do
  let (parts, g) ← addExpressions gates.flatten {}
  return (g.addCalculation (.horner .previousValue parts .y)).2

/-- `evaluate_lc`. Models halo2_proofs/src/plonk/evaluation.rs lines 246-256. -/
def addCompressed (es : List Expr) (g : Graph) : Except Panic (ValueSource × Graph) := do
  let (parts, g) ← addExpressions es g
  return g.addCalculation (.horner (.constant 0) parts .theta)

/-- The graph of a lookup. Models halo2_proofs/src/plonk/evaluation.rs lines 242-274. -/
def ofLookup (l : Lookup) : Except Panic Graph := do
  let (input, g) ← addCompressed l.input {}
  let (table, g) ← addCompressed l.table g
  let (right, g) := g.addCalculation (.add table .gamma)
  let (lc, g) := g.addCalculation (.add input .beta)
  return (g.addCalculation (.mul lc right)).2

/-- The loop over the calculations: `data` are the intermediates. Models
halo2_proofs/src/plonk/evaluation.rs lines 776-792. -/
def runCalculations (rotations : List Nat) (constants : List Fr) (x : GraphInput) :
    List (Calculation × Nat) → List Fr → Except Panic (List Fr)
  | [], data => .ok data
  | (c, target) :: cs, data =>
    match c.evaluate (ValueSource.get rotations constants data x) with
    | .error e => .error e
    | .ok v =>
      if target < data.length then runCalculations rotations constants x cs (data.set target v)
      else .error .index

/-- `evaluate` on `data`, the intermediates left by the evaluation before (zeros at first); returns
the value and the intermediates it leaves. Models halo2_proofs/src/plonk/evaluation.rs lines
755-800; `data.rotations` is overwritten completely. -/
def evaluate (g : Graph) (data : List Fr) (x : GraphInput) (idx size : Nat) :
    Except Panic (Fr × List Fr) := do
  let rotations := g.rotations.map fun r => rotationIdx idx r size
  let data ← runCalculations rotations g.constants x g.calculations data
  match g.calculations.getLast? with
  | some (_, target) => return (← indexList data target, data)
  | none => return (0, data)

end Graph

end Verif
