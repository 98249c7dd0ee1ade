import Verif.Model.Compile

/-!
The interpreter: `ckb_bf_vm/src/interpreter.rs` and `ckb_bf_vm/src/matrix.rs`.
-/

namespace Verif

/-- The registers, also one row of the processor table.
Models ckb_bf_vm/src/interpreter.rs lines 8-17. -/
structure Register where
  cycle : Fr := 0
  instruction_pointer : Fr := 0
  current_instruction : Fr := 0
  next_instruction : Fr := 0
  memory_pointer : Fr := 0
  memory_value : Fr := 0
  memory_value_inverse : Fr := 0
  deriving DecidableEq

/-- `ip()`: the instruction pointer as an index. Models interpreter.rs lines 20-22. -/
def Register.ip (r : Register) : Nat := r.instruction_pointer.toUsize

/-- `mp()`: the memory pointer as an index. Models interpreter.rs lines 24-26. -/
def Register.mp (r : Register) : Nat := r.memory_pointer.toUsize

/-- A row of the instruction table. Models ckb_bf_vm/src/matrix.rs lines 18-22. -/
structure InstrRow where
  instruction_pointer : Fr
  current_instruction : Fr
  next_instruction : Fr
  deriving DecidableEq

/-- Models ckb_bf_vm/src/matrix.rs lines 24-32. -/
def InstrRow.ofRegister (r : Register) : InstrRow :=
  ⟨r.instruction_pointer, r.current_instruction, r.next_instruction⟩

/-- A row of the memory table. Models ckb_bf_vm/src/matrix.rs lines 34-39. -/
structure MemRow where
  cycle : Fr
  memory_pointer : Fr
  memory_value : Fr
  interweave_indicator : Fr
  deriving DecidableEq

/-- Models ckb_bf_vm/src/matrix.rs lines 41-50. -/
def MemRow.ofRegister (r : Register) : MemRow :=
  ⟨r.cycle, r.memory_pointer, r.memory_value, 0⟩

/-- The trace tables. Models ckb_bf_vm/src/matrix.rs lines 8-16. -/
structure Matrix where
  processor : List Register := []
  instruction : List InstrRow := []
  memory : List MemRow := []
  input : List Fr := []
  output : List Fr := []
  program : List Fr := []
  deriving DecidableEq

/-- The interpreter. Models ckb_bf_vm/src/interpreter.rs lines 29-36. -/
structure Interp where
  code : List Fr := []
  input : List Fr := []
  memory : List Fr := [0]
  register : Register := {}
  matrix : Matrix := {}
  bits : Nat := 8
  deriving DecidableEq

namespace Interp

/-- `Interpreter::new()`. Models interpreter.rs lines 39-48. -/
def new : Interp := {}

/-- Models interpreter.rs lines 50-53. -/
def setCode (s : Interp) (code : List Fr) : Interp :=
  { s with matrix := { s.matrix with program := code }, code := code }

/-- Models interpreter.rs lines 55-57. -/
def setInput (s : Interp) (input : List Fr) : Interp := { s with input := input }

/-- Models interpreter.rs lines 59-61. -/
def setBits (s : Interp) (bits : Nat) : Interp := { s with bits := bits }

/-- Checked indexing, `v[i]` in Rust. -/
def idx (v : List Fr) (i : Nat) : Except Panic Fr :=
  match v[i]? with
  | some a => .ok a
  | none => .error .index

/-- Checked assignment, `v[i] = a` in Rust. -/
def put (v : List Fr) (i : Nat) (a : Fr) : Except Panic (List Fr) :=
  if i < v.length then .ok (v.set i a) else .error .index

/-- `Fr::from((1 << self.bits) - 1)`, the largest cell value.
Models interpreter.rs lines 101 and 110. The shift is a `u64` shift, so the
model is only faithful for `bits < 64`. -/
def cellMax (s : Interp) : Fr := ((2 ^ s.bits - 1 : Nat) : Fr)

/-- The loop's exit test. Models interpreter.rs line 82. -/
def halted (s : Interp) : Bool :=
  !(Fr.lt s.register.instruction_pointer (s.code.length : Fr))

/-- Recording a row. Models interpreter.rs lines 85-87. -/
def record (s : Interp) : Interp :=
  { s with matrix := { s.matrix with
      processor := s.matrix.processor ++ [s.register]
      instruction := s.matrix.instruction ++ [.ofRegister s.register]
      memory := s.matrix.memory ++ [.ofRegister s.register] } }

/-- `self.register.instruction_pointer += by`. -/
def advance (s : Interp) (by_ : Fr) : Interp :=
  { s with register := { s.register with
      instruction_pointer := s.register.instruction_pointer + by_ } }

/-- The `match` on the current instruction. Models interpreter.rs lines 88-141. -/
def exec (s : Interp) : Except Panic Interp :=
  let op := s.register.current_instruction.toU8
  if op = SHL.toNat then
    .ok ({ s with register := { s.register with
      memory_pointer := s.register.memory_pointer - 1 } }.advance 1)
  else if op = SHR.toNat then
    let s : Interp := { s with register := { s.register with
      memory_pointer := s.register.memory_pointer + 1 } }
    let s : Interp :=
      if s.register.mp = s.memory.length then { s with memory := s.memory ++ [0] } else s
    .ok (s.advance 1)
  else if op = ADD.toNat then do
    let v ← idx s.memory s.register.mp
    let m ← put s.memory s.register.mp (if v = s.cellMax then 0 else v + 1)
    .ok ({ s with memory := m }.advance 1)
  else if op = SUB.toNat then do
    let v ← idx s.memory s.register.mp
    let m ← put s.memory s.register.mp (if v = 0 then s.cellMax else v - 1)
    .ok ({ s with memory := m }.advance 1)
  else if op = GETCHAR.toNat then
    match s.input with
    | [] => .error .remove
    | val :: rest => do
      let m ← put s.memory s.register.mp val
      .ok ({ s with input := rest, memory := m,
                    matrix := { s.matrix with input := s.matrix.input ++ [val] } }.advance 1)
  else if op = PUTCHAR.toNat then
    .ok ({ s with matrix := { s.matrix with
      output := s.matrix.output ++ [s.register.memory_value] } }.advance 1)
  else if op = LB.toNat then do
    let v ← idx s.memory s.register.mp
    if v = 0 then do
      let t ← idx s.code (s.register.ip + 1)
      .ok { s with register := { s.register with instruction_pointer := t } }
    else .ok (s.advance 2)
  else if op = RB.toNat then do
    let v ← idx s.memory s.register.mp
    if v ≠ 0 then do
      let t ← idx s.code (s.register.ip + 1)
      .ok { s with register := { s.register with instruction_pointer := t } }
    else .ok (s.advance 2)
  else .error .unreachable

/-- The new current instruction. Models interpreter.rs lines 143-147. -/
def fetch (s : Interp) : Except Panic Fr :=
  if Fr.lt s.register.instruction_pointer (s.code.length : Fr) then idx s.code s.register.ip
  else .ok 0

/-- The new next instruction. Models interpreter.rs lines 148-152. -/
def fetchNext (s : Interp) : Except Panic Fr :=
  if Fr.lt s.register.instruction_pointer ((s.code.length : Fr) - 1) then
    idx s.code (s.register.ip + 1)
  else .ok 0

/-- The update of the registers at the end of an iteration.
Models interpreter.rs lines 142-158. -/
def refresh (s : Interp) : Except Panic Interp := do
  let ci ← s.fetch
  let ni ← s.fetchNext
  let mv ← idx s.memory s.register.mp
  .ok { s with register := { s.register with
      cycle := s.register.cycle + 1
      current_instruction := ci
      next_instruction := ni
      memory_value := mv
      memory_value_inverse := if mv = 0 then 0 else Fr.inv mv } }

/-- One iteration of the loop after the exit test. Models interpreter.rs lines 85-158. -/
def step (s : Interp) : Except Panic Interp := do
  let s ← exec s.record
  refresh s

/-- The loop, with fuel: `none` if it does not end within `fuel` iterations.
Models interpreter.rs lines 81-159. -/
def loop : Nat → Interp → Option (Except Panic Interp)
  | 0, s => if s.halted then some (.ok s) else none
  | n + 1, s =>
    if s.halted then some (.ok s)
    else match step s with
      | .error e => some (.error e)
      | .ok s' => loop n s'

/-- The rows of the instruction table that list the program.
Models interpreter.rs lines 70-80. -/
def programRows (code : List Fr) : List InstrRow :=
  (List.range code.length).map fun (i : Nat) =>
    { instruction_pointer := (i : Fr)
      current_instruction := code.getD i 0
      next_instruction := if i = code.length - 1 then 0 else code.getD (i + 1) 0 }

/-- Before the loop. Models interpreter.rs lines 64-80. -/
def start (s : Interp) : Except Panic Interp := do
  let ci ← idx s.code 0
  let ni ← (fun b => if b then .ok 0 else idx s.code 1) (decide (s.code.length = 1))
  .ok { s with
    register := { s.register with current_instruction := ci, next_instruction := ni }
    matrix := { s.matrix with instruction := s.matrix.instruction ++ programRows s.code } }

/-- After the loop: the final rows, then the two stable sorts.
Models interpreter.rs lines 160-164 (`sort_by_key` is a stable sort by the
order of field elements). -/
def finish (s : Interp) : Interp :=
  let s := s.record
  { s with matrix := { s.matrix with
      instruction := s.matrix.instruction.mergeSort
        (fun a b => decide (a.instruction_pointer.val ≤ b.instruction_pointer.val))
      memory := s.matrix.memory.mergeSort
        (fun a b => decide (a.memory_pointer.val ≤ b.memory_pointer.val)) } }

/-- `run()`: `none` = not finished within the fuel, `some (.error _)` = panic.
Models interpreter.rs lines 63-182. -/
def run (fuel : Nat) (s : Interp) : Option (Except Panic Interp) :=
  match start s with
  | .error e => some (.error e)
  | .ok s =>
    match loop fuel s with
    | none => none
    | some (.error e) => some (.error e)
    | some (.ok s) => some (.ok (finish s))

/-- An interpreter prepared as every caller does: `new`, `set_code`, `set_input`, and `set_bits`.
Models ckb_bf_prover/src/main.rs lines 141-148 (there `bits` keeps its default 8 and the input may
be left empty). -/
def prepare (bits : Nat) (code input : List Fr) : Interp :=
  ((new.setCode code).setInput input).setBits bits

end Interp

end Verif
