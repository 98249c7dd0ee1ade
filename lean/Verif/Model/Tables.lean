import Verif.Model.Circuit
import Verif.Model.Layout
import Verif.Model.Interp

/-!
Filling the tables, the `load_table` part of `ckb_bf_base/src/*.rs`.
-/

namespace Verif

/-- The four values of a permutation challenge: `alpha - d*a - e*b - f*c`. -/
def prpFactor (ch : Nat → Fr) (c : Nat × Nat × Nat × Nat) (x y z : Fr) : Fr :=
  ch c.1 - ch c.2.1 * x - ch c.2.2.1 * y - ch c.2.2.2 * z

/-- The running values of the processor table. Models the variables `mem_prp_prev`,
`inst_prp_prev`, `output_rs_prev`, `input_rs_prev` of ckb_bf_base/src/processor_table.rs lines
321-334. -/
structure ProcAcc where
  memPrp : Fr
  instPrp : Fr
  outputRs : Fr
  inputRs : Fr

/-- One update of the running values. `next` is the next row, if any.
Models ckb_bf_base/src/processor_table.rs lines 353-372. -/
def ProcAcc.next (cfg : BFChallenge) (ch : Nat → Fr) (a : ProcAcc) (reg : Register)
    (next : Option Register) : Except SynthErr ProcAcc :=
  let memPrp := a.memPrp * prpFactor ch cfg.mem reg.cycle reg.memory_pointer reg.memory_value
  let instPrp := a.instPrp * prpFactor ch cfg.inst reg.instruction_pointer
    reg.current_instruction reg.next_instruction
  let outputRs := if reg.current_instruction = frOfByte PUTCHAR then
    a.outputRs * ch cfg.outputRs + reg.memory_value else a.outputRs
  if reg.current_instruction = frOfByte GETCHAR then
    match next with
    | some r => .ok ⟨memPrp, instPrp, outputRs, a.inputRs * ch cfg.inputRs + r.memory_value⟩
    | none => .error .panic
  else .ok ⟨memPrp, instPrp, outputRs, a.inputRs⟩

/-- The running values after each row. -/
def procAccs (cfg : BFChallenge) (ch : Nat → Fr) : ProcAcc → List Register →
    Except SynthErr (List ProcAcc)
  | _, [] => .ok []
  | a, reg :: rest => do
    let a' ← a.next cfg ch reg rest.head?
    let as ← procAccs cfg ch a' rest
    .ok (a' :: as)

/-- The operations of one row of the processor table.
Models ckb_bf_base/src/processor_table.rs lines 338-376. -/
def procRow (c : ProcessorConfig) (len idx : Nat) (reg : Register) (a : ProcAcc) : List Op :=
  (if idx < len - 1 then [.enable c.sP idx, .enable c.sRs idx] else []) ++
  [.enable c.sC idx, .enable c.sLookup idx, .enable c.sPrp idx,
   .advice c.clk idx reg.cycle,
   .advice c.ip idx reg.instruction_pointer,
   .advice c.ci idx reg.current_instruction,
   .advice c.ni idx reg.next_instruction,
   .advice c.mp idx reg.memory_pointer,
   .advice c.mv idx reg.memory_value,
   .advice c.mvi idx reg.memory_value_inverse,
   .advice c.memPrp (idx + 1) a.memPrp,
   .advice c.instPrp (idx + 1) a.instPrp,
   .advice c.outputRs (idx + 1) a.outputRs,
   .advice c.inputRs (idx + 1) a.inputRs]

/-- The operations of the processor region. Models ckb_bf_base/src/processor_table.rs lines
318-379. The returned cells are those of row `processor_matrix.len()`. -/
def procOps (c : ProcessorConfig) (cfg : BFChallenge) (ch : Nat → Fr) (rows : List Register) :
    Except SynthErr (List Op) := do
  let as ← procAccs cfg ch ⟨cfg.memPrpInit, cfg.instPrpInit, 0, 0⟩ rows
  .ok ([.advice c.memPrp 0 cfg.memPrpInit, .advice c.instPrp 0 cfg.instPrpInit,
        .advice c.outputRs 0 0, .advice c.inputRs 0 0, .enable c.sB 0] ++
    ((rows.zip as).zipIdx.flatMap fun x => procRow c rows.length x.2 x.1.1 x.1.2))

/-- The running product of the memory table after each row.
Models ckb_bf_base/src/memory_table.rs lines 120-121. -/
def memAccs (cfg : BFChallenge) (ch : Nat → Fr) : Fr → List MemRow → List Fr
  | _, [] => []
  | a, r :: rest =>
    let a' := a * prpFactor ch cfg.mem r.cycle r.memory_pointer r.memory_value
    a' :: memAccs cfg ch a' rest

/-- One row of the memory table. Models ckb_bf_base/src/memory_table.rs lines 112-121. -/
def memRow (c : MemoryConfig) (len idx : Nat) (r : MemRow) (a : Fr) : List Op :=
  (if idx < len - 1 then [.enable c.sM idx] else []) ++
  [.enable c.sPrp idx,
   .advice c.clk idx r.cycle,
   .advice c.mp idx r.memory_pointer,
   .advice c.mv idx r.memory_value,
   .advice c.prp (idx + 1) a]

/-- The memory region. Models ckb_bf_base/src/memory_table.rs lines 97-127. -/
def memOps (c : MemoryConfig) (cfg : BFChallenge) (ch : Nat → Fr) (rows : List MemRow) : List Op :=
  [.advice c.prp 0 cfg.memPrpInit] ++
  ((rows.zip (memAccs cfg ch cfg.memPrpInit rows)).zipIdx.flatMap fun x =>
    memRow c rows.length x.2 x.1.1 x.1.2)

/-- The running product and running sum of the instruction table after each row.
Models ckb_bf_base/src/instruction_table.rs lines 165-184; on the last row `ip_next` is the row's
own pointer. -/
def instAccs (cfg : BFChallenge) (ch : Nat → Fr) : Fr × Fr → List InstrRow → List (Fr × Fr)
  | _, [] => []
  | (p, s), r :: rest =>
    let ipNext := (rest.head?.getD r).instruction_pointer
    let a' : Fr × Fr :=
      if ipNext = r.instruction_pointer then
        (p * prpFactor ch cfg.inst r.instruction_pointer r.current_instruction r.next_instruction, s)
      else (p, ch cfg.instRs * s + r.current_instruction)
    a' :: instAccs cfg ch a' rest

/-- One row of the instruction table. Models ckb_bf_base/src/instruction_table.rs lines 156-184. -/
def instRow (c : InstructionConfig) (len idx : Nat) (r : InstrRow) (a : Fr × Fr) : List Op :=
  (if idx < len - 1 then [.enable c.sI idx, .enable c.sPrp idx, .enable c.sRs idx] else []) ++
  [.advice c.ip idx r.instruction_pointer,
   .advice c.ci idx r.current_instruction,
   .advice c.ni idx r.next_instruction,
   .advice c.prp (idx + 1) a.1,
   .advice c.rs (idx + 1) a.2]

/-- The instruction region. Models ckb_bf_base/src/instruction_table.rs lines 139-189. -/
def instOps (c : InstructionConfig) (cfg : BFChallenge) (ch : Nat → Fr) (rows : List InstrRow) :
    List Op :=
  [.advice c.prp 0 cfg.instPrpInit, .advice c.rs 0 0, .enable c.sPrpAdhoc rows.length] ++
  ((rows.zip (instAccs cfg ch (cfg.instPrpInit, 0) rows)).zipIdx.flatMap fun x =>
    instRow c rows.length x.2 x.1.1 x.1.2)

/-- A running sum `acc ← gamma * acc + v` after each value. Models
ckb_bf_base/src/output_table.rs line 63, ckb_bf_base/src/input_table.rs line 80 and
ckb_bf_base/src/program_table.rs line 84. -/
def rsAccs (gamma : Fr) : Fr → List Fr → List Fr
  | _, [] => []
  | a, v :: rest => (gamma * a + v) :: rsAccs gamma (gamma * a + v) rest

/-- The output region. Models ckb_bf_base/src/output_table.rs lines 47-69. -/
def outputOps (c : OutputConfig) (gamma : Fr) (vals : List Fr) : List Op :=
  [.advice c.rs 0 0] ++
  ((vals.zip (rsAccs gamma 0 vals)).zipIdx.flatMap fun x =>
    [.enable c.sRs x.2, .advice c.val x.2 x.1.1, .advice c.rs (x.2 + 1) x.1.2])

/-- The values read from an instance column, rows `1..=len`.
Models the `query_instance` calls (prover.rs lines 172-183): an absent value is an error. -/
def fromInstances (inst : List Fr) (len : Nat) : Except SynthErr (List Fr) :=
  if len + 1 ≤ inst.length then .ok ((inst.drop 1).take len)
  else if len = 0 then .ok []
  else .error .boundsFailure

/-- The input region. Models ckb_bf_base/src/input_table.rs lines 56-86. -/
def inputOps (c : InputConfig) (instCol : Nat) (inst : List Fr) (gamma : Fr) (len : Nat) :
    Except SynthErr (List Op) := do
  let vals ← fromInstances inst len
  .ok ([.advice c.rs 0 0, .advice c.inputLen 0 (len : Fr)] ++
    ((vals.zip (rsAccs gamma 0 vals)).zipIdx.flatMap fun x =>
      [.enable c.sRs x.2, .fromInstance instCol (x.2 + 1) c.val x.2 x.1.1,
       .advice c.rs (x.2 + 1) x.1.2]))

/-- The program region. Models ckb_bf_base/src/program_table.rs lines 56-90. -/
def programOps (c : ProgramConfig) (instCol : Nat) (inst : List Fr) (gamma : Fr) (len : Nat) :
    Except SynthErr (List Op) := do
  let vals ← fromInstances inst len
  .ok ([.advice c.programLen 0 (len : Fr), .advice c.codeRs 0 0] ++
    ((vals.zip (rsAccs gamma 0 vals)).zipIdx.flatMap fun x =>
      [.enable c.sRs x.2, .fromInstance instCol (x.2 + 1) c.code x.2 x.1.1,
       .advice c.codeRs (x.2 + 1) x.1.2]))

/-- The range table's values. Models ckb_bf_base/src/range_table.rs lines 23-36. -/
def rangeValues (range : Nat) : List Fr := (List.range range).map fun (i : Nat) => (i : Fr)

/-- The equalities of the last region. Models ckb_bf_base/src/main_config.rs lines 82-92. Region
indices: 0 processor, 1 memory, 2 instruction, 3 output, 4 input, 5 program. -/
def extensionOps (c : MainConfig) (mx : Matrix) : List Op :=
  [.equal ⟨0, mx.processor.length, .advice c.p.memPrp⟩ ⟨1, mx.memory.length, .advice c.m.prp⟩,
   .equal ⟨3, mx.output.length, .advice c.output.rs⟩ ⟨0, mx.processor.length, .advice c.p.outputRs⟩,
   .equal ⟨4, mx.input.length, .advice c.input.rs⟩ ⟨0, mx.processor.length, .advice c.p.inputRs⟩,
   .equal ⟨0, mx.processor.length, .advice c.p.instPrp⟩ ⟨2, mx.instruction.length, .advice c.i.prp⟩,
   .equal ⟨5, mx.program.length, .advice c.program.codeRs⟩ ⟨2, mx.instruction.length, .advice c.i.rs⟩]

/-- `MainConfig::load_table`. Models ckb_bf_base/src/main_config.rs lines 71-93 with the range table
loaded first (processor_table.rs line 312). -/
def MainConfig.loadTable (range : Nat) (c : MainConfig) (mx : Matrix) (ch : Nat → Fr)
    (inst : Nat → List Fr) (a : Assembly) : Except SynthErr Assembly := do
  let a ← a.table c.p.table (rangeValues range)
  let pOps ← procOps c.p c.ch ch mx.processor
  let a ← a.region pOps
  let a ← a.region (memOps c.m c.ch ch mx.memory)
  let a ← a.region (instOps c.i c.ch ch mx.instruction)
  let a ← a.region (outputOps c.output (ch c.ch.outputRs) mx.output)
  let iOps ← inputOps c.input c.inputInst (inst c.inputInst) (ch c.ch.inputRs) mx.input.length
  let a ← a.region iOps
  let gOps ← programOps c.program c.codeInst (inst c.codeInst) (ch c.ch.instRs) mx.program.length
  let a ← a.region gOps
  let a ← a.constrainInstance ⟨5, 0, .advice c.program.programLen⟩ c.codeInst 0
  let a ← a.constrainInstance ⟨4, 0, .advice c.input.inputLen⟩ c.inputInst 0
  a.region (extensionOps c mx)

/-- Synthesis of `MyCircuit` into `n` rows. Models ckb_bf_base/src/main_config.rs lines 125-128
under halo2_proofs/src/plonk/keygen.rs lines 188-212 (`n` must be at least `minimum_rows`) and
halo2_proofs/src/plonk/prover.rs lines 85-90 (public inputs must fit). `ch` are the challenges. -/
def synthesize (n : Nat) (mx : Matrix) (ch : Nat → Fr) (inst : Nat → List Fr) :
    Except SynthErr Assembly :=
  if n < mainCS.minimumRows then .error .notEnoughRows
  else if mainCS.usableRows n < (inst 0).length ∨ mainCS.usableRows n < (inst 1).length then
    .error .notEnoughRows
  else mainConfig.loadTable DOMAIN mx ch inst
    { usable := mainCS.usableRows n, permutation := mainCS.permutation }

end Verif
