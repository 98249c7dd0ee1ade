import Verif.Model.Layout

/-!
The two floor planners, for any circuit: `halo2_proofs/src/circuit/floor_planner/single_pass.rs`,
`halo2_proofs/src/circuit/floor_planner/v1.rs`, `halo2_proofs/src/circuit/floor_planner/v1/strategy.rs` and
the shapes of `halo2_proofs/src/circuit/layouter.rs`. Tables are not included: their columns cannot be used
by regions or for constants. Row numbers are natural numbers: `usize` and `isize` do not overflow for sizes
that can be stored. The `Assignment` that the planners write to is a list of calls; where one of its calls
fails, the synthesis ends there.
-/

namespace Verif.FloorPlanner

/-- How synthesis ends without success. -/
inductive Stop
  | notEnoughColumnsForConstants
  | panic
  deriving DecidableEq, Repr

/-- What a circuit can do in a region, with values in `V`: the calls of `RegionLayouter`,
halo2_proofs/src/circuit/layouter.rs lines 40-120, in order: `enable_selector`, `assign_advice`,
`assign_advice_from_constant`, `assign_advice_from_instance` (with the value that is read),
`assign_fixed`, `constrain_equal` and `constrain_constant`. -/
inductive Call (V : Type)
  | enable (s : Selector) (offset : Nat)
  | advice (col offset : Nat) (v : V)
  | constant (col offset : Nat) (v : V)
  | fromInstance (inst row col offset : Nat) (v : V)
  | fixed (col offset : Nat) (v : V)
  | equal (a b : Cell)
  | equalConstant (c : Cell) (v : V)
  deriving DecidableEq

/-- What a planner asks of `Assignment`: `enable_selector`, `assign_advice`, `assign_fixed` and `copy`,
halo2_proofs/src/plonk/circuit.rs (`trait Assignment`), with absolute rows. -/
inductive Placed (V : Type)
  | enable (s : Selector) (row : Nat)
  | advice (col row : Nat) (v : V)
  | fixed (col row : Nat) (v : V)
  | copy (a : Col × Nat) (b : Col × Nat)
  deriving DecidableEq

variable {V : Type}

/-- The column a call adds to the shape of the region. Models halo2_proofs/src/circuit/layouter.rs lines 210-306. -/
def Call.column : Call V → Option RegionColumn
  | enable s _ => some (.sel s)
  | advice c _ _ => some (.col (.advice c))
  | constant c _ _ => some (.col (.advice c))
  | fromInstance _ _ c _ _ => some (.col (.advice c))
  | fixed c _ _ => some (.col (.fixed c))
  | equal _ _ => none
  | equalConstant _ _ => none

/-- The number of rows a call needs. Same lines. -/
def Call.rows : Call V → Nat
  | enable _ o => o + 1
  | advice _ o _ => o + 1
  | constant _ o _ => o + 1
  | fromInstance _ _ _ o _ => o + 1
  | fixed _ o _ => o + 1
  | equal _ _ => 0
  | equalConstant _ _ => 0

/-- `RegionShape`. Models halo2_proofs/src/circuit/layouter.rs lines 136-150. The set of columns is a list
without repetitions. -/
structure Shape where
  index : Nat
  columns : List RegionColumn
  rows : Nat
  deriving DecidableEq

/-- The shape measured for a region. Models single_pass.rs lines 91-96 and v1.rs lines 240-271. -/
def shapeOf (index : Nat) (calls : List (Call V)) : Shape :=
  ⟨index, (calls.filterMap Call.column).dedup, (calls.map Call.rows).foldl max 0⟩

/-- The constant that a call of region `region` asks for, and the cell to be copied to. Models
single_pass.rs lines 318-331, 375-378 and v1.rs lines 437-450, 494-497. -/
def Call.request (region : Nat) : Call V → Option (V × Cell)
  | constant c o v => some (v, ⟨region, o, .advice c⟩)
  | equalConstant c v => some (v, c)
  | _ => none

/-- The absolute position of a cell: indexing `regions` panics. -/
def position (starts : List Nat) (c : Cell) : Except Stop (Col × Nat) :=
  match starts[c.region]? with
  | some s => .ok (c.col, s + c.offset)
  | none => .error .panic

/-- A call in a region that starts at `start`. Models single_pass.rs lines 273-390 and v1.rs lines
402-518. -/
def place (starts : List Nat) (start : Nat) : Call V → Except Stop (List (Placed V))
  | .enable s o => .ok [.enable s (start + o)]
  | .advice c o v => .ok [.advice c (start + o) v]
  | .constant c o v => .ok [.advice c (start + o) v]
  | .fromInstance i r c o v => .ok [.advice c (start + o) v, .copy (.advice c, start + o) (.instance_ i, r)]
  | .fixed c o v => .ok [.fixed c (start + o) v]
  | .equal a b => do
    let p ← position starts a
    let q ← position starts b
    return [.copy p q]
  | .equalConstant _ _ => .ok []

/-- All calls of a region. -/
def placeAll (starts : List Nat) (start : Nat) : List (Call V) → Except Stop (List (Placed V))
  | [] => .ok []
  | c :: cs => do
    let p ← place starts start c
    let ps ← placeAll starts start cs
    return p ++ ps

/-- Constants put at the given positions of fixed columns. Models single_pass.rs lines 136-150 and
v1.rs lines 131-146. -/
def placeConstants (starts : List Nat) : List ((Nat × Nat) × (V × Cell)) → Except Stop (List (Placed V))
  | [] => .ok []
  | ((col, row), (v, cell)) :: l => do
    let p ← position starts cell
    let ps ← placeConstants starts l
    return .fixed col row v :: .copy (.fixed col, row) p :: ps

/-! The single-pass planner. -/

/-- `SingleChipLayouter`. Models single_pass.rs lines 42-53: where the regions start, and how many rows of
each column are used. -/
structure Simple where
  starts : List Nat := []
  used : RegionColumn → Nat := fun _ => 0

/-- `assign_region`. The closure is called twice, to measure and to assign; `measured` and `calls` are what it
does. Models single_pass.rs lines 82-154. `constants` are the columns enabled for constants. -/
def simpleRegion (constants : List Nat) (st : Simple) (measured calls : List (Call V)) :
    Except Stop (Simple × List (Placed V)) := do
  let shape := shapeOf st.starts.length measured
  let start := (shape.columns.map st.used).foldl max 0
  let starts := st.starts ++ [start]
  let used := fun c => if c ∈ shape.columns then start + shape.rows else st.used c
  let placed ← placeAll starts start calls
  let requests := calls.filterMap (Call.request st.starts.length)
  match constants with
  | [] => if requests.isEmpty then return (⟨starts, used⟩, placed) else .error .notEnoughColumnsForConstants
  | c :: _ =>
    let next := used (.col (.fixed c))
    let consts ← placeConstants starts ((List.range requests.length).map (fun i => (c, next + i)) |>.zip requests)
    return (⟨starts, fun d => if d = .col (.fixed c) then next + requests.length else used d⟩, placed ++ consts)

/-- The regions of a circuit, one after the other. Models single_pass.rs lines 29-40 with a circuit that
makes these calls. -/
def simple (constants : List Nat) : Simple → List (List (Call V) × List (Call V)) →
    Except Stop (Simple × List (Placed V))
  | st, [] => .ok (st, [])
  | st, (measured, calls) :: rest => do
    let (st, placed) ← simpleRegion constants st measured calls
    let (st, more) ← simple constants st rest
    return (st, placed ++ more)

/-! The planner V1. -/

/-- `AllocatedRegion`. Models strategy.rs lines 7-26. -/
structure Allocated where
  start : Nat
  length : Nat
  deriving DecidableEq

/-- `Allocations`: a set ordered by the start alone, as a list in ascending order. Models strategy.rs lines
42-46. -/
abbrev Allocations := List Allocated

/-- `BTreeSet::insert`: an element equal to one in the set, which means one with the same start, is not
inserted. -/
def Allocations.insert (a : Allocated) : Allocations → Allocations
  | [] => [a]
  | b :: l =>
    if a.start < b.start then a :: b :: l
    else if a.start = b.start then b :: l
    else b :: Allocations.insert a l

/-- `unbounded_interval_start`. Models strategy.rs lines 49-56. -/
def Allocations.unboundedStart (l : Allocations) : Nat :=
  match l.getLast? with
  | some r => r.start + r.length
  | none => 0

/-- `EmptySpace`. Models strategy.rs lines 28-40. -/
structure Space where
  start : Nat
  stop : Option Nat
  deriving DecidableEq

/-- `free_intervals`, from `row`: the scan over the allocations. Models strategy.rs lines 58-95. -/
def Allocations.free : Allocations → Nat → Option Nat → List Space
  | [], row, stop =>
    if (stop.map fun e => decide (row < e)).getD true then [⟨row, stop⟩] else []
  | r :: l, row, stop =>
    if (stop.map fun e => decide (e ≤ r.start)).getD false then Allocations.free l row stop
    else if row < r.start then
      ⟨row, some r.start⟩ :: Allocations.free l (max row (r.start + r.length)) stop
    else Allocations.free l (max row (r.start + r.length)) stop

/-- `CircuitAllocations`: columns that are not in the map have no allocations. Models strategy.rs lines
98-99. -/
abbrev Columns := RegionColumn → Allocations

/-- The first answer of a loop that can panic. -/
def firstSome {A B : Type} (f : A → Except Stop (Option B)) : List A → Except Stop (Option B)
  | [] => .ok none
  | a :: l => do
    match ← f a with
    | some b => return some b
    | none => firstSome f l

/-- `assert!`. -/
def ensure (b : Bool) : Except Stop Unit := if b then .ok () else .error .panic

/-- The room that a space has beyond a region of `length` rows; negative if it has not even that. Models
strategy.rs lines 124-127. -/
def Space.room (space : Space) (length : Nat) : Option Int :=
  space.stop.map fun (e : Nat) => (e : Int) - space.start - length

/-- The condition of the first assertion, strategy.rs lines 128-130. -/
def roomOk : Option Nat → Option Int → Bool
  | some s, some r => decide (r ≤ s)
  | _, _ => true

/-- The condition of the second assertion, strategy.rs lines 140-142. -/
def endOk (length row : Nat) : Option Nat → Bool
  | some e => decide (row + length ≤ e)
  | none => true

/-- The body of the loop of `first_fit_region`, strategy.rs lines 117-154, where `inner` is the search in the
remaining columns. -/
def tryIn (length : Nat) (c : RegionColumn) (stop slack : Option Nat)
    (inner : Nat → Option Nat → Except Stop (Option (Nat × Columns))) (space : Space) :
    Except Stop (Option (Nat × Columns)) := do
  ensure (roomOk slack (space.room length))
  if 0 ≤ (space.room length).getD 0 then
    match ← inner space.start ((space.room length).map Int.toNat) with
    | some (row, cols) =>
      ensure (endOk length row stop)
      return some (row, fun d => if d = c then (cols c).insert ⟨row, length⟩ else cols d)
    | none => return none
  else return none

/-- `first_fit_region`. Models strategy.rs lines 101-158. The answer is the row and the allocations with the
region added; without an answer the allocations are as before. -/
def firstFit (length : Nat) : List RegionColumn → Columns → Nat → Option Nat → Except Stop (Option (Nat × Columns))
  | [], cols, start, _ => .ok (some (start, cols))
  | c :: rest, cols, start, slack =>
    let stop := slack.map fun s => start + length + s
    firstSome (tryIn length c stop slack (firstFit length rest cols)) ((cols c).free start stop)

/-- How the sets and lists are ordered: `columns` lists a set of columns (sorted in the code), `shapes`
sorts shapes by area (`sort_unstable_by_key`, which leaves open how equal ones are ordered). -/
structure Orders where
  columns : List RegionColumn → List RegionColumn
  shapes : List Shape → List Shape

/-- `slot_in`. Models strategy.rs lines 160-192; `expect` panics if there is no answer. -/
def slotIn (o : Orders) : List Shape → Columns → Except Stop (List (Nat × Shape) × Columns)
  | [], cols => .ok ([], cols)
  | s :: rest, cols => do
    match ← firstFit s.rows (o.columns s.columns) cols 0 none with
    | none => .error .panic
    | some (start, cols) =>
      let (l, cols) ← slotIn o rest cols
      return ((start, s) :: l, cols)

/-- The advice columns of a shape times its rows: the key of the sort, strategy.rs lines 199-211. -/
def Shape.area (s : Shape) : Nat :=
  (s.columns.filter fun c => match c with | .col (.advice _) => true | _ => false).length * s.rows

/-- `slot_in_biggest_advice_first`. Models strategy.rs lines 194-222. The second sort is by region indices, which are
distinct, so it does not matter how equal ones are ordered. -/
def slotInBiggestFirst (o : Orders) (shapes : List Shape) : Except Stop (List Nat × Columns) := do
  let (l, cols) ← slotIn o (o.shapes shapes).reverse fun _ => []
  return ((l.insertionSort fun a b => a.2.index ≤ b.2.index).map (·.1), cols)

/-- The shapes of the first pass. Models v1.rs lines 70-78, 240-271. -/
def measure (regions : List (List (Call V))) : List Shape := regions.zipIdx.map fun r => shapeOf r.2 r.1

/-- `first_unassigned_row`: the map has the columns of the shapes. Models v1.rs lines 91-96. -/
def firstUnassigned (shapes : List Shape) (cols : Columns) : Nat :=
  ((shapes.flatMap Shape.columns).map fun c => (cols c).unboundedStart).foldl max 0

/-- `constant_positions`. Models v1.rs lines 98-117; `range().unwrap()` panics on an unbounded interval, which
`free` does not return when it is given an end. -/
def constantPositions (constants : List Nat) (rows : Nat) (cols : Columns) : List (Nat × Nat) :=
  constants.flatMap fun c => ((cols (.col (.fixed c))).free 0 (some rows)).flatMap fun e =>
    match e.stop with
    | some stop => (List.range' e.start (stop - e.start)).map fun i => (c, i)
    | none => []

/-- The second pass: the regions in order. Models v1.rs lines 119-125, 290-309; a region that was not
measured has no start, which panics when it makes a call (here any call; in the code `constrain_constant` and
`constrain_equal` do not look at the start, so this stops sooner). -/
def assignAll (starts : List Nat) : Nat → List (List (Call V)) → Except Stop (List (Placed V))
  | _, [] => .ok []
  | i, calls :: rest => do
    let placed ← match starts[i]? with
      | some start => placeAll starts start calls
      | none => if calls.isEmpty then .ok [] else .error .panic
    let more ← assignAll starts (i + 1) rest
    return placed ++ more

/-- `V1::synthesize`. Models v1.rs lines 61-150: `measured` is what the circuit without witnesses does,
`regions` what the circuit does. Returns the starts of the regions with what is asked of `Assignment`. -/
def v1 (o : Orders) (constants : List Nat) (measured regions : List (List (Call V))) :
    Except Stop (List Nat × List (Placed V)) := do
  let shapes := measure measured
  let (starts, cols) ← slotInBiggestFirst o shapes
  let positions := constantPositions constants (firstUnassigned shapes cols) cols
  let placed ← assignAll starts 0 regions
  let requests := regions.zipIdx.flatMap fun r => r.1.filterMap (Call.request r.2)
  if positions.length < requests.length then .error .notEnoughColumnsForConstants
  else do
    let consts ← placeConstants starts (positions.zip requests)
    return (starts, placed ++ consts)

end Verif.FloorPlanner
