import Verif.Model.Compress
import Verif.Model.Keygen
import Verif.Model.Permutation
import Verif.Model.Tables

/-!
The checker the project's tests use in place of a proof: `MockProver` of
`halo2_proofs/src/dev.rs` (with `halo2_proofs/src/dev/util.rs`).
-/

namespace Verif

/-- `CellValue`. Models halo2_proofs/src/dev.rs lines 84-93. -/
inductive CellValue
  | unassigned
  | assigned (v : Fr)
  | poison (row : Nat)
  deriving DecidableEq

/-- `Value`: a value of an expression, known or not. Models halo2_proofs/src/dev.rs lines 95-100. -/
inductive MValue
  | real (v : Fr)
  | poison
  deriving DecidableEq

/-- `From<CellValue> for Value`. Models halo2_proofs/src/dev.rs lines 102-111. -/
def CellValue.value : CellValue → MValue
  | unassigned => .real 0
  | assigned v => .real v
  | poison _ => .poison

namespace MValue

/-- Models halo2_proofs/src/dev.rs lines 113-122. -/
def neg : MValue → MValue
  | real a => real (-a)
  | poison => poison

/-- Models halo2_proofs/src/dev.rs lines 124-133. -/
def add : MValue → MValue → MValue
  | real a, real b => real (a + b)
  | _, _ => poison

/-- Models halo2_proofs/src/dev.rs lines 135-150. -/
def mul : MValue → MValue → MValue
  | real a, real b => real (a * b)
  | real x, poison => if x = 0 then real 0 else poison
  | poison, real x => if x = 0 then real 0 else poison
  | poison, poison => poison

/-- Multiplication by a field element. Models halo2_proofs/src/dev.rs lines 152-164. -/
def scale : MValue → Fr → MValue
  | real a, f => real (a * f)
  | poison, f => if f = 0 then real 0 else poison

/-- The derived order, by a number: field elements in the order of their canonical representative,
then poison. Models the `derive(Ord)` of halo2_proofs/src/dev.rs line 96 and `Ord for Fr` of
halo2curves/src/bn256/fr.rs. -/
def key : MValue → Nat
  | real v => v.val
  | poison => P

end MValue

/-- `complexity()`. Models halo2_proofs/src/plonk/circuit.rs lines 1199-1212. -/
def Expr.complexity : Expr → Nat
  | const _ => 0
  | selector _ => 1
  | fixed _ _ => 1
  | advice _ _ => 1
  | instance_ _ _ => 1
  | challenge _ => 0
  | neg a => a.complexity + 5
  | sum a b => a.complexity + b.complexity + 15
  | product a b => a.complexity + b.complexity + 30
  | scaled a _ => a.complexity + 30

/-- What an identifier is written of. -/
inductive Token
  | const (v : Fr)
  | selector (i : Nat)
  | fixed (col : Nat) (rot : Int)
  | advice (col : Nat) (rot : Int)
  | instance_ (col : Nat) (rot : Int)
  | challenge (i : Nat)
  | openNeg
  | open_
  | plus
  | times
  | close
  deriving DecidableEq

/-- `identifier()`. Models `write_identifier`, halo2_proofs/src/plonk/circuit.rs lines 1119-1180, with
one token for each constant (64 hexadecimal digits), each query and each bracket or operator instead
of characters. -/
def Expr.identifier : Expr → List Token
  | const v => [.const v]
  | selector s => [.selector s.index]
  | fixed c r => [.fixed c r]
  | advice c r => [.advice c r]
  | instance_ c r => [.instance_ c r]
  | challenge i => [.challenge i]
  | neg a => .openNeg :: a.identifier ++ [.close]
  | sum a b => .open_ :: a.identifier ++ .plus :: b.identifier ++ [.close]
  | product a b => .open_ :: a.identifier ++ .times :: b.identifier ++ [.close]
  | scaled a f => a.identifier ++ [.times, .const f]

/-- The cells an expression queries, with the rotation. Models `queried_cells` as recorded by
`query_fixed`, `query_advice` and `query_instance`, halo2_proofs/src/plonk/circuit.rs lines 2395-2424,
for gates that use every cell they query (as those of this circuit do). -/
def Expr.cells : Expr → List (Col × Int)
  | fixed c r => [(.fixed c, r)]
  | advice c r => [(.advice c, r)]
  | instance_ c r => [(.instance_ c, r)]
  | neg a => a.cells
  | sum a b => a.cells ++ b.cells
  | product a b => a.cells ++ b.cells
  | scaled a _ => a.cells
  | _ => []

/-- The selectors an expression queries. Models `queried_selectors` as recorded by `query_selector`,
halo2_proofs/src/plonk/circuit.rs lines 2389-2392. -/
def Expr.selectors : Expr → List Selector
  | selector s => [s]
  | neg a => a.selectors
  | sum a b => a.selectors ++ b.selectors
  | product a b => a.selectors ++ b.selectors
  | scaled a _ => a.selectors
  | _ => []

/-- What is recorded about a region. Models halo2_proofs/src/dev.rs lines 46-83 (without names and
annotations): the enabled selectors with their rows, the assigned cells, and the first and last row
assigned to. -/
structure MockRegion where
  enabled : List (Selector × Nat) := []
  cells : List (Col × Nat) := []
  rows : Option (Nat × Nat) := none
  deriving DecidableEq

namespace MockRegion

/-- Models `update_extent` and the record of a cell, halo2_proofs/src/dev.rs lines 67-82, 406-413 and
460-467. -/
def assign (r : MockRegion) (col : Col) (row : Nat) : MockRegion :=
  { r with
    cells := r.cells ++ [(col, row)]
    rows := some (match r.rows with
      | none => (row, row)
      | some (s, e) => (min s row, max e row)) }

/-- Models halo2_proofs/src/dev.rs lines 355-362. -/
def enable (r : MockRegion) (s : Selector) (row : Nat) : MockRegion :=
  { r with enabled := r.enabled ++ [(s, row)] }

/-- What one operation at a region that starts at `start` records. -/
def record (start : Nat) (r : MockRegion) : Op → MockRegion
  | .enable s o => r.enable s (start + o)
  | .advice c o _ => r.assign (.advice c) (start + o)
  | .fromInstance _ _ c o _ => r.assign (.advice c) (start + o)
  | .equal _ _ => r

end MockRegion

/-- The state of `MockProver` during synthesis, with that of the layouter. Models
halo2_proofs/src/dev.rs lines 272-302. The checks that `MockProver` makes (lines 337-535) are those
of `Assembly`; recorded in addition is which advice and fixed cells have been assigned, and the
regions. -/
structure MockState where
  asm : Assembly
  advice : Nat → Nat → Bool := fun _ _ => false
  fixed : Nat → Nat → Bool := fun _ _ => false
  regions : List MockRegion := []

namespace MockState

/-- The advice cells assigned after an operation. Models halo2_proofs/src/dev.rs lines 415-421. -/
def mark (start : Nat) (f : Nat → Nat → Bool) : Op → Nat → Nat → Bool
  | .advice c o _ => Assembly.update f c (start + o) true
  | .fromInstance _ _ c o _ => Assembly.update f c (start + o) true
  | _ => f

/-- The operations of a region. `cur` is `current_region`. Models halo2_proofs/src/dev.rs lines
337-535 as called from single_pass.rs lines 274-381. -/
def ops (start : Nat) : List Op → MockState → MockRegion → Except SynthErr (MockState × MockRegion)
  | [], st, cur => .ok (st, cur)
  | o :: os, st, cur => do
    let a ← Assembly.op start st.asm o
    ops start os { st with asm := a, advice := mark start st.advice o } (cur.record start o)

/-- `assign_region`. Models single_pass.rs lines 85-127 with `enter_region` and `exit_region` of
halo2_proofs/src/dev.rs lines 305-331. -/
def region (st : MockState) (os : List Op) : Except SynthErr MockState := do
  let a := st.asm
  let cols := regionColumns os
  let start := a.startRow cols
  let (st, cur) ← ops start os { st with asm := { a with
    starts := a.starts ++ [start]
    used := fun c => if c ∈ cols then start + regionRows os else a.used c } } {}
  return { st with regions := st.regions ++ [cur] }

/-- `assign_table` for one fixed column. Models single_pass.rs lines 161-204 with halo2_proofs/src/dev.rs
lines 305-331, 440-476 and 494-509: the given values are assigned in a region, the rows after them
outside of any. -/
def table (st : MockState) (col : Nat) (vals : List Fr) : Except SynthErr MockState := do
  let a ← st.asm.table col vals
  return { st with
    asm := a
    fixed := fun c r => if c = col ∧ r < st.asm.usable then true else st.fixed c r
    regions := st.regions ++
      [(List.range vals.length).foldl (fun r row => r.assign (.fixed col) row) {}] }

/-- `constrain_instance`. Models single_pass.rs lines 206-218. -/
def constrainInstance (st : MockState) (c : Cell) (inst row : Nat) : Except SynthErr MockState := do
  let a ← st.asm.constrainInstance c inst row
  return { st with asm := a }

end MockState

/-- The calls a circuit makes to its layouter. -/
inductive Step
  | table (col : Nat) (vals : List Fr)
  | region (os : List Op)
  | constrainInstance (c : Cell) (inst row : Nat)

/-- The calls carried out. -/
def MockState.run : List Step → MockState → Except SynthErr MockState
  | [], st => .ok st
  | .table col vals :: rest, st => do run rest (← st.table col vals)
  | .region os :: rest, st => do run rest (← st.region os)
  | .constrainInstance c i r :: rest, st => do run rest (← st.constrainInstance c i r)

/-- A `MockProver` after `run`. Models halo2_proofs/src/dev.rs lines 272-302. `cs` is the constraint
system with its selectors replaced, `queried` holds for each gate the selectors and the cells its
closure queried, `mapping` is the permutation of the cells. Columns are functions of the row; that
queries are of existing columns is not part of the model. -/
structure Mock where
  n : Nat
  usable : Nat
  cs : CS
  queried : List (List Selector × List (Col × Int))
  regions : List MockRegion
  fixed : Nat → Nat → CellValue
  advice : Nat → Nat → CellValue
  instance_ : Nat → Nat → Fr
  challenge : Nat → Fr
  mapping : List (List (Nat × Nat))

/-- A cell as `MockProver` holds it: `Unassigned` unless it was assigned. -/
def CellValue.of (assigned : Bool) (v : Fr) : CellValue := if assigned then .assigned v else .unassigned

/-- What `MockProver::run` makes of a finished synthesis. Models halo2_proofs/src/dev.rs lines 565-584
and 660-674. `inst` are the public inputs (padded with zeros, lines 552-563), `ch` the challenges (made
by hashing a constant, lines 587-596; here arbitrary). `fuel` bounds the loop in `copy`. -/
def Mock.of (fuel : Nat) (cs : CS) (n : Nat) (st : MockState) (ch : Nat → Fr) (inst : Nat → List Fr) :
    Except Panic (Except SynthErr Mock) := do
  match ← PermAssembly.copyAll fuel st.asm.copies (PermAssembly.new n cs.permutation) with
  | .error e => return .error e
  | .ok p =>
    let (c, cols, _) ← cs.compressSelectors (Keygen.activations cs n st.asm)
    return .ok
      { n := n
        usable := cs.usableRows n
        cs := c.cs
        queried := cs.gates.map fun g => (g.flatMap Expr.selectors, g.flatMap Expr.cells)
        regions := st.regions
        fixed := fun i r => if i < cs.numFixed then .of (st.fixed i r) (st.asm.fixed i r)
          else match (cols[i - cs.numFixed]?).bind (·[r]?) with
            | some v => .assigned v
            | none => .unassigned
        advice := fun i r => if r < cs.usableRows n then .of (st.advice i r) (st.asm.advice i r)
          else .poison r
        instance_ := fun i r => (inst i).getD r 0
        challenge := ch
        mapping := p.mapping }

/-- `VerifyFailure`, without the descriptions of places. Models halo2_proofs/src/dev/failure.rs lines
116-189. -/
inductive Failure
  | cellNotAssigned (region gate row : Nat) (col : Col) (cellRow : Nat)
  | notSatisfied (gate poly row : Nat)
  | poisoned (gate poly : Nat)
  | lookup (index row : Nat)
  | permutation (col row : Nat)
  deriving DecidableEq

namespace Mock

/-- The value of a cell as an expression sees it. Models `util::load` and `util::load_instance`,
halo2_proofs/src/dev/util.rs lines 78-103, and halo2_proofs/src/dev.rs lines 838-864, for rotations of
at most `n`. -/
def load (m : Mock) (row : Nat) : Col × Int → MValue
  | (.fixed c, r) => (m.fixed c (rotate m.n row r)).value
  | (.advice c, r) => (m.advice c (rotate m.n row r)).value
  | (.instance_ c, r) => .real (m.instance_ c (rotate m.n row r))

/-- `evaluate_lazy`. Models halo2_proofs/src/plonk/circuit.rs lines 995-1117 as called in
halo2_proofs/src/dev.rs lines 769-787 and 834-870. A selector panics there; none is left after
`compress_selectors`, and here it is poison. -/
def lazy (m : Mock) (row : Nat) : Expr → MValue
  | .const c => .real c
  | .selector _ => .poison
  | .fixed c r => m.load row (.fixed c, r)
  | .advice c r => m.load row (.advice c, r)
  | .instance_ c r => m.load row (.instance_ c, r)
  | .challenge i => .real (m.challenge i)
  | .neg a => (m.lazy row a).neg
  | .sum a b => (m.lazy row a).add (m.lazy row b)
  | .product a b =>
    if a.complexity ≤ b.complexity then
      let v := m.lazy row a
      if v = .real 0 then v else v.mul (m.lazy row b)
    else
      let v := m.lazy row b
      if v = .real 0 then v else v.mul (m.lazy row a)
  | .scaled a f => (m.lazy row a).scale f

/-- Results of loops over lists put together: a panic in one of them is the result. -/
def collect {α β : Type} (f : α → Except Panic (List β)) : List α → Except Panic (List β)
  | [] => .ok []
  | x :: xs => do
    let a ← f x
    let b ← collect f xs
    return a ++ b

/-- `selector_errors`: cells queried by a gate whose selector is enabled in a region but not assigned
in it. Models halo2_proofs/src/dev.rs lines 708-753, with the `unwrap` of line 747. (The order of the
selectors of a region is that of a hash map there.) -/
def selectorErrors (m : Mock) : Except Panic (List Failure) :=
  collect (fun (r : MockRegion × Nat) =>
    collect (fun (e : Selector × Nat) =>
      collect (fun (q : (List Selector × List (Col × Int)) × Nat) =>
        if e.1 ∈ q.1.1 then
          collect (fun (c : Col × Int) =>
            if (c.1, rotate m.n e.2 c.2) ∈ r.1.cells then .ok []
            else match r.1.rows with
              | none => .error .unwrap
              | some _ => .ok [.cellNotAssigned r.2 q.2 e.2 c.1 (rotate m.n e.2 c.2)]) q.1.2
        else .ok []) m.queried.zipIdx) r.1.enabled) m.regions.zipIdx

/-- One polynomial in one row. Models halo2_proofs/src/dev.rs lines 769-823. The description of a
failure reads the values of the cells that the gate queried and the polynomial mentions; it panics at
a poisoned one (halo2_proofs/src/dev/util.rs lines 105-136 and 138-168). -/
def polyError (m : Mock) (gate : Nat) (row : Nat) (p : Expr × Nat) : Except Panic (List Failure) :=
  match m.lazy row p.1 with
  | .real x =>
    if x = 0 then .ok []
    else if p.1.cells.any fun c =>
        decide (c ∈ ((m.queried[gate]?).map (·.2)).getD []) && decide (m.load row c = .poison)
      then .error .unreachable
    else .ok [.notSatisfied gate p.2 row]
  | .poison => .ok [.poisoned gate p.2]

/-- `gate_errors`. Models halo2_proofs/src/dev.rs lines 755-825. -/
def gateErrors (m : Mock) (rows : List Nat) : Except Panic (List Failure) :=
  collect (fun (g : List Expr × Nat) =>
    collect (fun row => collect (m.polyError g.2 row) g.1.zipIdx)
      (rows ++ (List.range m.n).filter (m.cs.usableRows m.n ≤ ·))) m.cs.gates.zipIdx

/-- The order of rows of values: lexicographic. -/
def below (x y : List MValue) : Bool := decide (x.map MValue.key < y.map MValue.key)

/-- The order `sort_unstable` uses for pairs of values and row. -/
def pairBelow (x y : List MValue × Nat) : Bool :=
  below x.1 y.1 || (decide (x.1.map MValue.key = y.1.map MValue.key) && decide (x.2 < y.2))

/-- The search through the sorted table. `rest` is the table from position `i` on. Models
halo2_proofs/src/dev.rs lines 935-962, with the assertion of line 942. -/
def scan (table : List (List MValue)) (index : Nat) :
    List (List MValue) → List (List MValue × Nat) → Except Panic (List Failure)
  | _, [] => .ok []
  | rest, (x, row) :: inputs =>
    let rest := rest.dropWhile (below · x)
    if rest = [] ∨ (∃ t ∈ rest.head?, below x t) then
      if x ∈ table then .error .assert
      else (scan table index rest inputs).map (.lookup index row :: ·)
    else scan table index rest inputs

/-- The search of `verify_par`: a binary search for each input, which on a sorted table finds what is
there. Models halo2_proofs/src/dev.rs lines 1303-1322. -/
def scanPar (table : List (List MValue)) (index : Nat) (inputs : List (List MValue × Nat)) :
    List Failure :=
  inputs.filterMap fun x => if x.1 ∈ table then none else some (.lookup index x.2)

/-- The table of a lookup without the fill row, sorted. Models halo2_proofs/src/dev.rs lines 895-914. -/
def tableOf (m : Mock) (l : Lookup) (fill : List MValue) : List (List MValue) :=
  (((List.range m.usable).map fun row => l.table.map (m.lazy row)).filter (· ≠ fill)).mergeSort
    fun x y => !below y x

/-- The inputs of a lookup without those that are the fill row, sorted. Models halo2_proofs/src/dev.rs
lines 916-933. -/
def inputsOf (m : Mock) (rows : List Nat) (l : Lookup) (fill : List MValue) :
    List (List MValue × Nat) :=
  ((rows.map fun row => (l.input.map (m.lazy row), row)).filter (·.1 ≠ fill)).mergeSort
    fun x y => !pairBelow y x

/-- `lookup_errors`. `cache` are `cached_table_identifier` and `cached_table`. Models
halo2_proofs/src/dev.rs lines 827-963; with `par`, lines 1203-1323. -/
def lookupErrors (m : Mock) (par : Bool) (rows : List Nat) :
    List (List Token) × List (List MValue) → List (Lookup × Nat) → Except Panic (List Failure)
  | _, [] => .ok []
  | cache, (l, index) :: ls =>
    if l.table.length ≠ l.input.length then .error .assert
    else if m.usable = 0 then .error .assert
    else
      let fill := l.table.map (m.lazy (m.usable - 1))
      let id := l.table.map Expr.identifier
      let cache := if id = cache.1 then cache else (id, m.tableOf l fill)
      let inputs := m.inputsOf rows l fill
      do
        let a ← if par then .ok (scanPar cache.2 index inputs) else scan cache.2 index cache.2 inputs
        let b ← m.lookupErrors par rows cache ls
        return a ++ b

/-- `original`: a cell of the permutation's columns. Models halo2_proofs/src/dev.rs lines 967-979. -/
def original (m : Mock) (c : Nat × Nat) : Except Panic CellValue :=
  match m.cs.permutation[c.1]? with
  | none => .error .unwrap
  | some (.advice i) => .ok (m.advice i c.2)
  | some (.fixed i) => .ok (m.fixed i c.2)
  | some (.instance_ i) => .ok (.assigned (m.instance_ i c.2))

/-- `perm_errors`. Models halo2_proofs/src/dev.rs lines 981-1008. -/
def permErrors (m : Mock) : Except Panic (List Failure) :=
  collect (fun (col : List (Nat × Nat) × Nat) =>
    collect (fun (cell : (Nat × Nat) × Nat) => do
      let a ← m.original (col.2, cell.2)
      let b ← m.original cell.1
      return if a = b then [] else [.permutation col.2 cell.2]) col.1.zipIdx) m.mapping.zipIdx

/-- Two failures about the same poisoned constraint. -/
def samePoison : Failure → Failure → Bool
  | .poisoned g p, .poisoned g' p' => decide (g = g' ∧ p = p')
  | _, _ => false

/-- What is kept after the failure `prev`. -/
def dedupAfter (prev : Failure) : List Failure → List Failure
  | [] => []
  | b :: rest => if samePoison prev b then dedupAfter prev rest else b :: dedupAfter b rest

/-- `dedup_by`: of equal poisoned constraints in a row only the first is kept. Models
halo2_proofs/src/dev.rs lines 1021-1030. -/
def dedup : List Failure → List Failure
  | [] => []
  | a :: rest => a :: dedupAfter a rest

/-- `verify_at_rows`, and `verify_at_rows_par` with `par`. Models halo2_proofs/src/dev.rs lines 686-1032
and 1043-1400. -/
def verifyAtRows (m : Mock) (par : Bool) (gateRows lookupRows : List Nat) :
    Except Panic (Except (List Failure) Unit) := do
  if gateRows.all (· < m.usable) && lookupRows.all (· < m.usable) then
    let a ← m.selectorErrors
    let b ← m.gateErrors gateRows
    let c ← m.lookupErrors par lookupRows ([], []) m.cs.lookups.zipIdx
    let d ← m.permErrors
    let errors := a ++ b ++ c ++ d
    return if errors = [] then .ok () else .error (dedup errors)
  else .error .assert

/-- `verify`. Models halo2_proofs/src/dev.rs lines 678-680. -/
def verify (m : Mock) : Except Panic (Except (List Failure) Unit) :=
  m.verifyAtRows false (List.range m.usable) (List.range m.usable)

/-- `verify_par`. Models halo2_proofs/src/dev.rs lines 1034-1039. -/
def verifyPar (m : Mock) : Except Panic (Except (List Failure) Unit) :=
  m.verifyAtRows true (List.range m.usable) (List.range m.usable)

end Mock

/-- The calls the brainfuck circuit makes to its layouter. Models ckb_bf_base/src/main_config.rs lines
71-93 like `MainConfig.loadTable`; the values of the rows are computed before the first call here, so
that an error in them comes first. -/
def mainSteps (range : Nat) (c : MainConfig) (mx : Matrix) (ch : Nat → Fr) (inst : Nat → List Fr) :
    Except SynthErr (List Step) := do
  let pOps ← procOps c.p c.ch ch mx.processor
  let iOps ← inputOps c.input c.inputInst (inst c.inputInst) (ch c.ch.inputRs) mx.input.length
  let gOps ← programOps c.program c.codeInst (inst c.codeInst) (ch c.ch.instRs) mx.program.length
  return [.table c.p.table (rangeValues range), .region pOps,
    .region (memOps c.m c.ch ch mx.memory), .region (instOps c.i c.ch ch mx.instruction),
    .region (outputOps c.output (ch c.ch.outputRs) mx.output), .region iOps, .region gOps,
    .constrainInstance ⟨5, 0, .advice c.program.programLen⟩ c.codeInst 0,
    .constrainInstance ⟨4, 0, .advice c.input.inputLen⟩ c.inputInst 0, .region (extensionOps c mx)]

/-- `MockProver::run` on a circuit with constraint system `cs` that makes the calls `steps`. Models
halo2_proofs/src/dev.rs lines 537-676 (without the feature `phase-check`, which is off). Errors are not
told apart by kind beyond `SynthErr`. -/
def Mock.runSteps (fuel : Nat) (cs : CS) (n : Nat) (steps : List Step) (ch : Nat → Fr)
    (inst : Nat → List Fr) : Except Panic (Except SynthErr Mock) :=
  if n < cs.minimumRows then .ok (.error .notEnoughRows)
  else if (List.range cs.numInstance).any fun i => decide (cs.usableRows n < (inst i).length) then
    .ok (.error .notEnoughRows)
  else match MockState.run steps
      { asm := { usable := cs.usableRows n, permutation := cs.permutation } } with
    | .error e => .ok (.error e)
    | .ok st => Mock.of fuel cs n st ch inst

/-- The public inputs as the circuit sees them during synthesis: padded with zeros. Models
halo2_proofs/src/dev.rs line 560. -/
def padded (n : Nat) (inst : Nat → List Fr) (i : Nat) : List Fr :=
  inst i ++ List.replicate (n - (inst i).length) 0

/-- `MockProver::run` on the brainfuck circuit (`MyCircuit`, ckb_bf_base/src/main_config.rs lines
96-129), as called in ckb_bf_prover/tests/basic.rs. -/
def Mock.run (fuel n : Nat) (mx : Matrix) (ch : Nat → Fr) (inst : Nat → List Fr) :
    Except Panic (Except SynthErr Mock) :=
  match mainSteps DOMAIN mainConfig mx ch (padded n inst) with
  | .error e => .ok (.error e)
  | .ok steps => Mock.runSteps fuel mainCS n steps ch inst

end Verif
