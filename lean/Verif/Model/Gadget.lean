import Verif.Model.FloorPlanner
import Mathlib.Data.ZMod.Basic
import Mathlib.Data.Nat.Size

/-!
The utility gadgets of `halo2_gadgets`: `halo2_gadgets/src/utilities.rs` and `halo2_gadgets/src/utilities/`.
The chips are generic in the field there; the field here is `ZMod p`. What a chip does in a region is the list
of calls it makes (`FloorPlanner.Call`), with values that are unknown when keys are generated.
-/

namespace Verif.Gadget

open FloorPlanner (Call)

/-- How a chip ends without success: with a panic or by returning an error. -/
inductive Stop
  | panic
  | error
  deriving DecidableEq, Repr

/-- `assert!` and the like. -/
def assert (b : Bool) : Except Stop Unit := if b then .ok () else .error .panic

/-- `Expression<F>` over any field. Models halo2_proofs/src/plonk/circuit.rs lines 855-880; instance columns
and challenges are left out, which no gadget uses. -/
inductive Expr (F : Type)
  | const (c : F)
  | selector (s : Selector)
  | fixed (col : Nat) (rot : Int)
  | advice (col : Nat) (rot : Int)
  | neg (a : Expr F)
  | sum (a b : Expr F)
  | product (a b : Expr F)
  | scaled (a : Expr F) (f : F)

namespace Expr

variable {F : Type}

/-- Models halo2_proofs/src/plonk/circuit.rs lines 1320-1325. -/
instance : Neg (Expr F) := ⟨neg⟩
/-- Models halo2_proofs/src/plonk/circuit.rs lines 1327-1335. -/
instance : Add (Expr F) := ⟨sum⟩
/-- Models halo2_proofs/src/plonk/circuit.rs lines 1337-1345. -/
instance : Sub (Expr F) := ⟨fun a b => sum a (neg b)⟩
/-- Models halo2_proofs/src/plonk/circuit.rs lines 1347-1355. -/
instance : Mul (Expr F) := ⟨product⟩

/-- `square()`. Models halo2_proofs/src/plonk/circuit.rs lines 1214-1217. -/
def square (a : Expr F) : Expr F := a * a

/-- The value of an expression in a row: `sel` says where selectors are enabled, `w` gives the columns. Models
`Expression::evaluate`, halo2_proofs/src/plonk/circuit.rs lines 886-990. -/
def eval [Ring F] (sel : Selector → Int → Bool) (w : Col → Int → F) (row : Int) : Expr F → F
  | const c => c
  | selector s => if sel s row then 1 else 0
  | fixed c r => w (.fixed c) (row + r)
  | advice c r => w (.advice c) (row + r)
  | neg a => - a.eval sel w row
  | sum a b => a.eval sel w row + b.eval sel w row
  | product a b => a.eval sel w row * b.eval sel w row
  | scaled a f => a.eval sel w row * f

/-- The cells that an expression reads. -/
def queries : Expr F → List (Col × Int)
  | fixed c r => [(.fixed c, r)]
  | advice c r => [(.advice c, r)]
  | neg a => a.queries
  | sum a b => a.queries ++ b.queries
  | product a b => a.queries ++ b.queries
  | scaled a _ => a.queries
  | _ => []

end Expr

/-- What a chip adds to a constraint system: the polynomials of a gate with the selector they are multiplied
with, and lookups of one expression in one table column. Models `Constraints::with_selector`,
halo2_proofs/src/plonk/circuit.rs lines 1454-1494, and `ConstraintSystem::lookup`. -/
structure Chip (F : Type) where
  gates : List (Selector × List (Expr F)) := []
  lookups : List (Expr F × Nat) := []

/-- `AssignedCell`: a cell and the value known to have been assigned to it, if it is known. Models
halo2_proofs/src/circuit.rs lines 76-100. -/
structure Assigned (F : Type) where
  cell : Cell
  value : Option F

/-- The calls of a region with values in `F` that may be unknown. -/
abbrev Calls (F : Type) := List (Call (Option F))

variable {F : Type}

/-- `copy_advice` in region `region`. Models halo2_proofs/src/circuit.rs lines 153-169. -/
def copyAdvice (region : Nat) (a : Assigned F) (col offset : Nat) : Calls F × Assigned F :=
  let b : Assigned F := ⟨⟨region, offset, .advice col⟩, a.value⟩
  ([.advice col offset a.value, .equal b.cell a.cell], b)

/-- `assign_advice` in region `region`. -/
def assignAdvice (region : Nat) (col offset : Nat) (v : Option F) : Calls F × Assigned F :=
  ([.advice col offset v], ⟨⟨region, offset, .advice col⟩, v⟩)

/-! Expressions, `halo2_gadgets/src/utilities.rs`. -/

/-- `range_check`. Models utilities.rs lines 169-175. -/
def rangeCheck [NatCast F] (word : Expr F) (range : Nat) : Expr F :=
  (List.range' 1 (range - 1)).foldl (fun acc (i : Nat) => acc * (Expr.const (i : F) - word)) word

/-- `bool_check`. Models utilities.rs lines 133-136. -/
def boolCheck [NatCast F] (v : Expr F) : Expr F := rangeCheck v 2

/-- `ternary`. Models utilities.rs lines 138-144. -/
def ternary [One F] (a b c : Expr F) : Expr F := a * b + (Expr.const 1 - a) * c

/-! Bits. -/

/-- `to_le_bits()` of a field element with a representation of 32 bytes, as all fields of `halo2curves` have. -/
def toLeBits {p : Nat} (x : ZMod p) : List Bool := (List.range 256).map fun i => x.val.testBit i

/-- `bitrange_subset`, of the bits from `start` to before `stop`. Models utilities.rs lines 146-167. `NUM_BITS`
is the number of bits of the modulus. Where the range is reversed, the subtraction overflows, which panics
when overflow is checked. -/
def bitrangeSubset {p : Nat} (x : ZMod p) (start stop : Nat) : Except Stop (ZMod p) := do
  assert (stop ≤ p.size)
  assert (start ≤ stop)
  return (((toLeBits x).drop start).take (stop - start)).reverse.foldl
    (fun acc bit => if bit then acc + acc + 1 else acc + acc) 0

/-- `chunks_exact`. -/
def chunksExact {A : Type} (n : Nat) (l : List A) : List (List A) :=
  (List.range (l.length / n)).map fun i => (l.drop (i * n)).take n

/-- `decompose_word`. Models utilities.rs lines 177-204; the bytes are numbers here, below 256 as a window has
at most 8 bits. With windows of no bits the remainder panics. -/
def decomposeWord {p : Nat} (word : ZMod p) (wordBits windowBits : Nat) : Except Stop (List Nat) := do
  assert (windowBits ≤ 8)
  assert (0 < windowBits)
  let padding := (windowBits - wordBits % windowBits) % windowBits
  let bits := (toLeBits word).take wordBits ++ List.replicate padding false
  assert (bits.length == wordBits + padding)
  return (chunksExact windowBits bits).map fun chunk =>
    chunk.reverse.foldl (fun acc b => acc * 2 + b.toNat) 0

/-- `lebs2ip`. Models utilities.rs lines 207-217. -/
def lebs2ip (bits : List Bool) : Except Stop Nat := do
  assert (bits.length ≤ 64)
  return bits.zipIdx.foldl (fun acc b => acc + if b.1 then 2 ^ b.2 else 0) 0

/-- `i2lebsp`. Models utilities.rs lines 219-242. -/
def i2lebsp (numBits : Nat) (int : Nat) : Except Stop (List Bool) := do
  assert (numBits ≤ 64)
  return (List.range numBits).map fun mask => int.testBit mask

/-! The conditional swap, `halo2_gadgets/src/utilities/cond_swap.rs`. -/

/-- `CondSwapConfig`. Models cond_swap.rs lines 48-57. -/
structure CondSwap where
  qSwap : Selector
  a : Nat
  b : Nat
  aSwapped : Nat
  bSwapped : Nat
  swap : Nat

namespace CondSwap

/-- The gate of `configure`. Models cond_swap.rs lines 152-182. -/
def chip [Ring F] (c : CondSwap) : Chip F :=
  let a := Expr.advice c.a 0
  let b := Expr.advice c.b 0
  let aSwapped := Expr.advice c.aSwapped 0
  let bSwapped := Expr.advice c.bSwapped 0
  let swap := Expr.advice c.swap 0
  { gates := [(c.qSwap,
      [aSwapped - ternary swap b a, bSwapped - ternary swap a b, boolCheck swap])] }

/-- `swap`. Models cond_swap.rs lines 70-121. -/
def run [Zero F] [One F] (c : CondSwap) (region : Nat) (pair : Assigned F × Option F) (swap : Option Bool) :
    Calls F × (Assigned F × Assigned F) :=
  let (copied, a) := copyAdvice region pair.1 c.a 0
  let (assignedB, b) := assignAdvice region c.b 0 pair.2
  let swapVal := swap.map fun s => if s then (1 : F) else 0
  let (assignedSwap, _) := assignAdvice region c.swap 0 swapVal
  let (assignedA', a') := assignAdvice region c.aSwapped 0
    (do let x ← a.value; let y ← b.value; let s ← swap; return if s then y else x)
  let (assignedB', b') := assignAdvice region c.bSwapped 0
    (do let x ← a.value; let y ← b.value; let s ← swap; return if s then x else y)
  (.enable c.qSwap 0 :: copied ++ assignedB ++ assignedSwap ++ assignedA' ++ assignedB', (a', b'))

end CondSwap

/-! Running sums, `halo2_gadgets/src/utilities/decompose_running_sum.rs`. -/

/-- `Value::transpose_vec`. Models halo2_proofs/src/circuit/value.rs lines 207-223. -/
def transposeVec {A : Type} (v : Option (List A)) (length : Nat) : Except Stop (List (Option A)) :=
  match v with
  | some l => do
    assert (l.length == length)
    return l.map some
  | none => .ok (List.replicate length none)

/-- `Value::map` with a function that can panic. -/
def onKnown {A B : Type} (v : Option A) (f : A → Except Stop B) : Except Stop (Option B) :=
  match v with
  | some x => (f x).map some
  | none => .ok none

variable {p : Nat}

/-- The loop that assigns the running sum: after `z` at `offset + i`, one cell for each word. Models
decompose_running_sum.rs lines 184-203 and lookup_range_check.rs lines 268-292. -/
def sumCells (region col offset : Nat) (inv : ZMod p) : Nat → Assigned (ZMod p) → List (Option (ZMod p)) →
    List (Assigned (ZMod p))
  | _, _, [] => []
  | i, z, word :: words =>
    let next : Assigned (ZMod p) := ⟨⟨region, offset + i + 1, .advice col⟩,
      do let x ← z.value; let k ← word; return (x - k) * inv⟩
    next :: sumCells region col offset inv (i + 1) next words

/-- `RunningSumConfig` with windows of `k` bits. Models decompose_running_sum.rs lines 49-55. -/
structure RunningSum where
  qRangeCheck : Selector
  z : Nat

namespace RunningSum

/-- `configure`. Models decompose_running_sum.rs lines 74-102, with the assertion. -/
def chip (c : RunningSum) (k : Nat) : Except Stop (Chip (ZMod p)) := do
  assert (k ≤ 3)
  let word := Expr.advice c.z 0 - .scaled (.advice c.z 1) ((2 : ZMod p) ^ k)
  return { gates := [(c.qRangeCheck, [rangeCheck word (2 ^ k)])] }

/-- `decompose`. Models decompose_running_sum.rs lines 143-213. The inverse of `2^k` is unwrapped. -/
def decompose (c : RunningSum) (k region offset : Nat) (z0 : Assigned (ZMod p)) (strict : Bool)
    (wordBits numWindows : Nat) : Except Stop (Calls (ZMod p) × List (Assigned (ZMod p))) := do
  assert (k * numWindows < wordBits + k)
  let decomposed ← onKnown z0.value fun x => decomposeWord x wordBits k
  let words ← transposeVec decomposed numWindows
  assert ((2 : ZMod p) ^ k != 0)
  let cells := sumCells region c.z offset ((2 : ZMod p) ^ k)⁻¹ 0 z0
    (words.map fun w => w.map fun (n : Nat) => (n : ZMod p))
  let zs := z0 :: cells
  assert (zs.length == numWindows + 1)
  let last := zs.getLast?.getD z0
  return ((List.range numWindows).map (fun idx => .enable c.qRangeCheck (offset + idx)) ++
    cells.map (fun a => .advice c.z a.cell.offset a.value) ++
    (if strict then [.equalConstant last.cell (some 0)] else []), zs)

/-- `witness_decompose`. Models decompose_running_sum.rs lines 108-119. -/
def witness (c : RunningSum) (k region offset : Nat) (alpha : Option (ZMod p)) (strict : Bool)
    (wordBits numWindows : Nat) : Except Stop (Calls (ZMod p) × List (Assigned (ZMod p))) := do
  let (calls, z0) := assignAdvice region c.z offset alpha
  let (more, zs) ← c.decompose k region offset z0 strict wordBits numWindows
  return (calls ++ more, zs)

/-- `copy_decompose`. Models decompose_running_sum.rs lines 125-136. -/
def copy (c : RunningSum) (k region offset : Nat) (alpha : Assigned (ZMod p)) (strict : Bool)
    (wordBits numWindows : Nat) : Except Stop (Calls (ZMod p) × List (Assigned (ZMod p))) := do
  let (calls, z0) := copyAdvice region alpha c.z offset
  let (more, zs) ← c.decompose k region offset z0 strict wordBits numWindows
  return (calls ++ more, zs)

end RunningSum

/-! Range checks by lookup, `halo2_gadgets/src/utilities/lookup_range_check.rs`. -/

/-- `LookupRangeCheckConfig` with words of `k` bits. Models lookup_range_check.rs lines 60-69. -/
structure RangeCheck where
  qLookup : Selector
  qRunning : Selector
  qBitshift : Selector
  runningSum : Nat
  tableIdx : Nat

namespace RangeCheck

/-- `configure`. Models lookup_range_check.rs lines 83-155. -/
def chip (c : RangeCheck) (k : Nat) : Chip (ZMod p) :=
  let qLookup := Expr.selector c.qLookup
  let qRunning := Expr.selector c.qRunning
  let zCur := Expr.advice c.runningSum 0
  let zNext := Expr.advice c.runningSum 1
  let runningLookup := qRunning * (zCur - .scaled zNext ((2 : ZMod p) ^ k))
  let shortLookup := (.const 1 - qRunning) * zCur
  let word := Expr.advice c.runningSum (-1)
  let shifted := Expr.advice c.runningSum 0
  let inv := Expr.advice c.runningSum 1
  { gates := [(c.qBitshift, [.scaled word ((2 : ZMod p) ^ k) * inv - shifted])]
    lookups := [(qLookup * (runningLookup + shortLookup), c.tableIdx)] }

/-- The table. Models `load`, lookup_range_check.rs lines 157-176. -/
def load (k : Nat) : List (ZMod p) := (List.range (2 ^ k)).map fun (i : Nat) => (i : ZMod p)

/-- The words of a known element. Models lookup_range_check.rs lines 236-258. -/
def words (k numWords : Nat) (x : ZMod p) : Except Stop (List Nat) := do
  assert (0 < k)
  (chunksExact k ((toLeBits x).take (numWords * k))).mapM lebs2ip

/-- `range_check`. Models lookup_range_check.rs lines 225-299. `CAPACITY` is one less than the number of bits of
the modulus. -/
def rangeCheck (c : RangeCheck) (k region : Nat) (element : Assigned (ZMod p)) (numWords : Nat) (strict : Bool) :
    Except Stop (Calls (ZMod p) × List (Assigned (ZMod p))) := do
  assert (numWords * k ≤ p.size - 1)
  let decomposed ← onKnown element.value (words k numWords)
  let words ← transposeVec decomposed numWords
  assert ((2 : ZMod p) ^ k != 0)
  let cells := sumCells region c.runningSum 0 ((2 : ZMod p) ^ k)⁻¹ 0 element
    (words.map fun w => w.map fun (n : Nat) => (n : ZMod p))
  let zs := element :: cells
  let last := zs.getLast?.getD element
  return (cells.zipIdx.flatMap (fun (a, idx) => [.enable c.qLookup idx, .enable c.qRunning idx,
      .advice c.runningSum (idx + 1) a.value]) ++
    (if strict then [.equalConstant last.cell (some 0)] else []), zs)

/-- `copy_check`. Models lookup_range_check.rs lines 183-198. -/
def copyCheck (c : RangeCheck) (k region : Nat) (element : Assigned (ZMod p)) (numWords : Nat) (strict : Bool) :
    Except Stop (Calls (ZMod p) × List (Assigned (ZMod p))) := do
  let (calls, z0) := copyAdvice region element c.runningSum 0
  let (more, zs) ← c.rangeCheck k region z0 numWords strict
  return (calls ++ more, zs)

/-- `witness_check`. Models lookup_range_check.rs lines 201-216. -/
def witnessCheck (c : RangeCheck) (k region : Nat) (value : Option (ZMod p)) (numWords : Nat) (strict : Bool) :
    Except Stop (Calls (ZMod p) × List (Assigned (ZMod p))) := do
  let (calls, z0) := assignAdvice region c.runningSum 0 value
  let (more, zs) ← c.rangeCheck k region z0 numWords strict
  return (calls ++ more, zs)

/-- `short_range_check`. Models lookup_range_check.rs lines 350-386. The subtraction `K - num_bits` does not
underflow under the assertions of the callers. -/
def shortRangeCheck (c : RangeCheck) (k : Nat) (element : Assigned (ZMod p)) (numBits : Nat) :
    Except Stop (Calls (ZMod p)) := do
  assert ((2 : ZMod p) ^ numBits != 0)
  return [.enable c.qLookup 0, .enable c.qLookup 1, .enable c.qBitshift 1,
    .advice c.runningSum 1 (element.value.map fun x => x * (2 : ZMod p) ^ (k - numBits)),
    .constant c.runningSum 2 (some ((2 : ZMod p) ^ numBits)⁻¹)]

/-- `copy_short_check`. Models lookup_range_check.rs lines 302-319. -/
def copyShort (c : RangeCheck) (k region : Nat) (element : Assigned (ZMod p)) (numBits : Nat) :
    Except Stop (Calls (ZMod p)) := do
  assert (numBits < k)
  let (calls, e) := copyAdvice region element c.runningSum 0
  let more ← c.shortRangeCheck k e numBits
  return calls ++ more

/-- `witness_short_check`. Models lookup_range_check.rs lines 326-345. -/
def witnessShort (c : RangeCheck) (k region : Nat) (element : Option (ZMod p)) (numBits : Nat) :
    Except Stop (Calls (ZMod p) × Assigned (ZMod p)) := do
  assert (numBits ≤ k)
  let (calls, e) := assignAdvice region c.runningSum 0 element
  let more ← c.shortRangeCheck k e numBits
  return (calls ++ more, e)

/-- `RangeConstrained::witness_short`. Models lookup_range_check.rs lines 36-56: the bits `start` to before
`stop` of a value. -/
def witnessBits (c : RangeCheck) (k region : Nat) (value : Option (ZMod p)) (start stop : Nat) :
    Except Stop (Calls (ZMod p) × Assigned (ZMod p)) := do
  assert (stop - start < k)
  let bits ← onKnown value fun x => bitrangeSubset x start stop
  c.witnessShort k region bits (stop - start)

end RangeCheck

end Verif.Gadget
