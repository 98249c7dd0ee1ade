import Verif.Model.Plonk
import Verif.Model.Compile

/-!
The circuit of the zkVM, `configure` part: `ckb_bf_base/src/*.rs`.
-/

namespace Verif

/-- `OPCODES`. Models ckb_bf_base/src/utils.rs lines 15-24. -/
def OPCODES : List UInt8 := [SHL, SHR, ADD, SUB, GETCHAR, PUTCHAR, LB, RB]

/-- `Fr::from(b as u64)`. -/
def frOfByte (b : UInt8) : Fr := ((b.toNat : Nat) : Fr)

/-- The challenges and initial values. Models ckb_bf_base/src/utils.rs lines 39-75: challenges 0-3
memory permutation (alpha, d, e, f), 4-7 instruction permutation, 8 program running sum, 9 output
running sum, 10 input running sum. -/
structure BFChallenge where
  memPrpInit : Fr
  instPrpInit : Fr
  mem : Nat × Nat × Nat × Nat
  inst : Nat × Nat × Nat × Nat
  instRs : Nat
  outputRs : Nat
  inputRs : Nat

/-- `BFChallenge::init`. Models ckb_bf_base/src/utils.rs lines 46-53. -/
def BFChallenge.init : Conf BFChallenge := do
  let c0 ← Conf.challengeUsableAfter 0
  let c1 ← Conf.challengeUsableAfter 0
  let c2 ← Conf.challengeUsableAfter 0
  let c3 ← Conf.challengeUsableAfter 0
  let c4 ← Conf.challengeUsableAfter 0
  let c5 ← Conf.challengeUsableAfter 0
  let c6 ← Conf.challengeUsableAfter 0
  let c7 ← Conf.challengeUsableAfter 0
  let c8 ← Conf.challengeUsableAfter 0
  let c9 ← Conf.challengeUsableAfter 0
  let c10 ← Conf.challengeUsableAfter 0
  return { memPrpInit := 3, instPrpInit := 9, mem := (c0, c1, c2, c3), inst := (c4, c5, c6, c7),
           instRs := c8, outputRs := c9, inputRs := c10 }

/-- `create_deselector`. Models ckb_bf_base/src/processor_table.rs lines 45-54. -/
def createDeselector (ci : Expr) (op : UInt8) : Expr :=
  OPCODES.foldl (fun e v => if v = op then e else e * (ci - .const (frOfByte v))) (.const 1)

/-- `create_selector`. Models ckb_bf_base/src/processor_table.rs lines 57-59. -/
def createSelector (ci : Expr) (op : UInt8) : Expr := ci - .const (frOfByte op)

/-- Models ckb_bf_base/src/processor_table.rs lines 23-42. -/
structure ProcessorConfig where
  clk : Nat
  ip : Nat
  ci : Nat
  ni : Nat
  mp : Nat
  mv : Nat
  mvi : Nat
  memPrp : Nat
  instPrp : Nat
  outputRs : Nat
  inputRs : Nat
  table : Nat
  sLookup : Selector
  sP : Selector
  sC : Selector
  sB : Selector
  sPrp : Selector
  sRs : Selector
  deriving DecidableEq

/-- Boundary gates: `sel * col`. Models ckb_bf_base/src/processor_table.rs lines 91-113. -/
def gateB (sB : Selector) (col : Nat) : Conf (List Expr) := do
  let x ← Conf.queryAdvice col 0
  return [.selector sB * x]

/-- Gate P0. Models ckb_bf_base/src/processor_table.rs lines 121-126. -/
def gateP0 (sP : Selector) (clk : Nat) : Conf (List Expr) := do
  let cur ← Conf.queryAdvice clk 0
  let next ← Conf.queryAdvice clk 1
  return [.selector sP * (next - cur - .const 1)]

/-- Gate C0. Models ckb_bf_base/src/processor_table.rs lines 128-133. -/
def gateC0 (sC : Selector) (mv mvi : Nat) : Conf (List Expr) := do
  let mv ← Conf.queryAdvice mv 0
  let mvi ← Conf.queryAdvice mvi 0
  return [.selector sC * mv * (mv * mvi - .const 1)]

/-- Gate C1. Models ckb_bf_base/src/processor_table.rs lines 135-140. -/
def gateC1 (sC : Selector) (mv mvi : Nat) : Conf (List Expr) := do
  let mv ← Conf.queryAdvice mv 0
  let mvi ← Conf.queryAdvice mvi 0
  return [.selector sC * mvi * (mv * mvi - .const 1)]

/-- Gate P_1. Models ckb_bf_base/src/processor_table.rs lines 142-169. -/
def gateP1 (sP : Selector) (ci ip mv mvi ni : Nat) : Conf (List Expr) := do
  let ci ← Conf.queryAdvice ci 0
  let d := createDeselector ci
  let curIp ← Conf.queryAdvice ip 0
  let nextIp ← Conf.queryAdvice ip 1
  let curMv ← Conf.queryAdvice mv 0
  let curMvi ← Conf.queryAdvice mvi 0
  let curNi ← Conf.queryAdvice ni 0
  let e1 := (d ADD + d SUB + d SHR + d SHL + d GETCHAR + d PUTCHAR) * (nextIp - curIp - .const 1)
  let eLB := d LB * (curMv * (nextIp - curIp - .const 2) + (curMv * curMvi - .const 1) * (nextIp - curNi))
  let eRB := d RB * ((curMv * curMvi - .const 1) * (nextIp - curIp - .const 2) + curMv * (nextIp - curNi))
  return [.selector sP * (e1 + eLB + eRB)]

/-- Gate P_2. Models ckb_bf_base/src/processor_table.rs lines 171-191. -/
def gateP2 (sP : Selector) (ci mp : Nat) : Conf (List Expr) := do
  let ci ← Conf.queryAdvice ci 0
  let d := createDeselector ci
  let curMp ← Conf.queryAdvice mp 0
  let nextMp ← Conf.queryAdvice mp 1
  let e1 := (d ADD + d SUB + d LB + d RB + d GETCHAR + d PUTCHAR) * (nextMp - curMp)
  let eSHL := d SHL * (nextMp - curMp + .const 1)
  let eSHR := d SHR * (nextMp - curMp - .const 1)
  return [.selector sP * (e1 + eSHL + eSHR)]

/-- Gate P_3. Models ckb_bf_base/src/processor_table.rs lines 193-218; `rangeMax` is
`RANGE - 1`. -/
def gateP3 (sP : Selector) (range : Nat) (ci mv : Nat) : Conf (List Expr) := do
  let rangeMax : Expr := .const ((range - 1 : Nat) : Fr)
  let ci ← Conf.queryAdvice ci 0
  let d := createDeselector ci
  let curMv ← Conf.queryAdvice mv 0
  let nextMv ← Conf.queryAdvice mv 1
  let e1 := (d LB + d RB + d PUTCHAR) * (nextMv - curMv)
  let eAdd := d ADD * (nextMv - curMv - .const 1) * (nextMv - curMv + rangeMax)
  let eSub := d SUB * (nextMv - curMv + .const 1) * (nextMv - curMv - rangeMax)
  let e2 := (d SHL + d SHR + d GETCHAR) * .const 0
  return [.selector sP * (e1 + e2 + eAdd + eSub)]

/-- `ProcessorTableConfig::configure`. Models ckb_bf_base/src/processor_table.rs lines 62-240. -/
def ProcessorConfig.configure (range : Nat) : Conf ProcessorConfig := do
  let clk ← Conf.adviceColumnIn 0
  let ci ← Conf.adviceColumn
  let ip ← Conf.adviceColumn
  let ni ← Conf.adviceColumn
  let mp ← Conf.adviceColumnIn 0
  let mv ← Conf.adviceColumnIn 0
  let mvi ← Conf.adviceColumn
  let memPrp ← Conf.adviceColumnIn 1
  Conf.enableEquality (.advice memPrp)
  let instPrp ← Conf.adviceColumnIn 1
  Conf.enableEquality (.advice instPrp)
  let outputRs ← Conf.adviceColumnIn 1
  Conf.enableEquality (.advice outputRs)
  let inputRs ← Conf.adviceColumnIn 1
  Conf.enableEquality (.advice inputRs)
  let table ← Conf.fixedColumn
  let sLookup ← Conf.complexSelector
  let sC ← Conf.selector
  let sP ← Conf.selector
  let sB ← Conf.selector
  let sPrp ← Conf.selector
  let sRs ← Conf.selector
  Conf.createGate (gateB sB clk)
  Conf.createGate (gateB sB ip)
  Conf.createGate (gateB sB mp)
  Conf.createGate (gateB sB mv)
  Conf.lookup (do
    let mv ← Conf.queryAdvice mv 0
    return .selector sLookup * mv) table
  Conf.createGate (gateP0 sP clk)
  Conf.createGate (gateC0 sC mv mvi)
  Conf.createGate (gateC1 sC mv mvi)
  Conf.createGate (gateP1 sP ci ip mv mvi ni)
  Conf.createGate (gateP2 sP ci mp)
  Conf.createGate (gateP3 sP range ci mv)
  return { clk, ip, ci, ni, mp, mv, mvi, memPrp, instPrp, outputRs, inputRs, table,
           sLookup, sP, sC, sB, sPrp, sRs }

/-- The permutation gate of the processor and memory tables:
`s * (next - cur * (alpha - d*a - e*b - f*c))`.
Models ckb_bf_base/src/processor_table.rs lines 243-252 and 254-263 and
ckb_bf_base/src/memory_table.rs lines 85-94. -/
def gatePrp (s : Selector) (a b c prp : Nat) (ch : Nat × Nat × Nat × Nat) : Conf (List Expr) := do
  let a ← Conf.queryAdvice a 0
  let b ← Conf.queryAdvice b 0
  let c ← Conf.queryAdvice c 0
  let cur ← Conf.queryAdvice prp 0
  let next ← Conf.queryAdvice prp 1
  let (alpha, d, e, f) := ch
  return [.selector s * (next - cur * (.challenge alpha - .challenge d * a - .challenge e * b
    - .challenge f * c))]

/-- The running sum gates of the processor table. `rot` is 0 for output and 1 for input.
Models ckb_bf_base/src/processor_table.rs lines 265-281 and 283-300. -/
def gateProcRs (s : Selector) (op : UInt8) (ci mv rs : Nat) (rot : Int) (gamma : Nat) :
    Conf (List Expr) := do
  let ci ← Conf.queryAdvice ci 0
  let mv ← Conf.queryAdvice mv rot
  let cur ← Conf.queryAdvice rs 0
  let next ← Conf.queryAdvice rs 1
  return [.selector s * (createDeselector ci op * (next - (cur * .challenge gamma + mv))
    + createSelector ci op * (next - cur))]

/-- `configure_second_phase`. Models ckb_bf_base/src/processor_table.rs lines 242-301. -/
def ProcessorConfig.secondPhase (c : ProcessorConfig) (ch : BFChallenge) : Conf Unit := do
  Conf.createGate (gatePrp c.sPrp c.clk c.mp c.mv c.memPrp ch.mem)
  Conf.createGate (gatePrp c.sPrp c.ip c.ci c.ni c.instPrp ch.inst)
  Conf.createGate (gateProcRs c.sRs PUTCHAR c.ci c.mv c.outputRs 0 ch.outputRs)
  Conf.createGate (gateProcRs c.sRs GETCHAR c.ci c.mv c.inputRs 1 ch.inputRs)

/-- Models ckb_bf_base/src/memory_table.rs lines 20-28. -/
structure MemoryConfig where
  clk : Nat
  mp : Nat
  mv : Nat
  prp : Nat
  sM : Selector
  sPrp : Selector
  deriving DecidableEq

/-- Gate M0. Models ckb_bf_base/src/memory_table.rs lines 42-47. -/
def gateM0 (sM : Selector) (mp : Nat) : Conf (List Expr) := do
  let cur ← Conf.queryAdvice mp 0
  let next ← Conf.queryAdvice mp 1
  return [.selector sM * (next - cur - .const 1) * (next - cur)]

/-- Gate M1. Models ckb_bf_base/src/memory_table.rs lines 49-65. -/
def gateM1 (sM : Selector) (mp mv clk : Nat) : Conf (List Expr) := do
  let curMp ← Conf.queryAdvice mp 0
  let nextMp ← Conf.queryAdvice mp 1
  let curMv ← Conf.queryAdvice mv 0
  let nextMv ← Conf.queryAdvice mv 1
  let curClk ← Conf.queryAdvice clk 0
  let nextClk ← Conf.queryAdvice clk 1
  return [.selector sM * (nextMp - curMp - .const 1) * (curMv - nextMv)
    * (nextClk - curClk - .const 1)]

/-- Gate M2. Models ckb_bf_base/src/memory_table.rs lines 67-73. -/
def gateM2 (sM : Selector) (mp mv : Nat) : Conf (List Expr) := do
  let curMp ← Conf.queryAdvice mp 0
  let nextMp ← Conf.queryAdvice mp 1
  let nextMv ← Conf.queryAdvice mv 1
  return [.selector sM * (nextMp - curMp) * nextMv]

/-- `MemoryTableConfig::configure`. Models ckb_bf_base/src/memory_table.rs lines 31-82. -/
def MemoryConfig.configure : Conf MemoryConfig := do
  let clk ← Conf.adviceColumnIn 0
  let mp ← Conf.adviceColumnIn 0
  let mv ← Conf.adviceColumnIn 0
  let prp ← Conf.adviceColumnIn 1
  Conf.enableEquality (.advice prp)
  let sM ← Conf.selector
  let sPrp ← Conf.selector
  Conf.createGate (gateM0 sM mp)
  Conf.createGate (gateM1 sM mp mv clk)
  Conf.createGate (gateM2 sM mp mv)
  return { clk, mp, mv, prp, sM, sPrp }

/-- Models ckb_bf_base/src/memory_table.rs lines 84-95. -/
def MemoryConfig.secondPhase (c : MemoryConfig) (ch : BFChallenge) : Conf Unit :=
  Conf.createGate (gatePrp c.sPrp c.clk c.mp c.mv c.prp ch.mem)

/-- Models ckb_bf_base/src/instruction_table.rs lines 20-31. -/
structure InstructionConfig where
  ip : Nat
  ci : Nat
  ni : Nat
  prp : Nat
  rs : Nat
  sPrp : Selector
  sPrpAdhoc : Selector
  sRs : Selector
  sI : Selector
  deriving DecidableEq

/-- Gate I0. Models ckb_bf_base/src/instruction_table.rs lines 49-54. -/
def gateI0 (sI : Selector) (ip : Nat) : Conf (List Expr) := do
  let cur ← Conf.queryAdvice ip 0
  let next ← Conf.queryAdvice ip 1
  return [.selector sI * (next - cur) * (next - cur - .const 1)]

/-- Gates I1 and I2. Models ckb_bf_base/src/instruction_table.rs lines 56-63 and 65-72. -/
def gateI12 (sI : Selector) (ip x : Nat) : Conf (List Expr) := do
  let curIp ← Conf.queryAdvice ip 0
  let nextIp ← Conf.queryAdvice ip 1
  let cur ← Conf.queryAdvice x 0
  let next ← Conf.queryAdvice x 1
  return [.selector sI * (nextIp - curIp - .const 1) * (next - cur)]

/-- `InstructionTableConfig::configure`. Models ckb_bf_base/src/instruction_table.rs lines 34-84. -/
def InstructionConfig.configure : Conf InstructionConfig := do
  let ip ← Conf.adviceColumnIn 0
  let ci ← Conf.adviceColumnIn 0
  let ni ← Conf.adviceColumnIn 0
  let prp ← Conf.adviceColumnIn 1
  let rs ← Conf.adviceColumnIn 1
  Conf.enableEquality (.advice prp)
  Conf.enableEquality (.advice rs)
  let sPrp ← Conf.selector
  let sRs ← Conf.selector
  let sPrpAdhoc ← Conf.selector
  let sI ← Conf.selector
  Conf.createGate (gateI0 sI ip)
  Conf.createGate (gateI12 sI ip ci)
  Conf.createGate (gateI12 sI ip ni)
  return { ip, ci, ni, prp, rs, sPrp, sPrpAdhoc, sRs, sI }

/-- Models ckb_bf_base/src/instruction_table.rs lines 88-100. -/
def gateInstRs (s : Selector) (ip ci rs gamma : Nat) : Conf (List Expr) := do
  let ipCur ← Conf.queryAdvice ip 0
  let ipNext ← Conf.queryAdvice ip 1
  let ci ← Conf.queryAdvice ci 0
  let rsCur ← Conf.queryAdvice rs 0
  let rsNext ← Conf.queryAdvice rs 1
  return [.selector s * ((ipNext - ipCur) * (rsNext - (rsCur * .challenge gamma + ci))
    + (ipNext - ipCur - .const 1) * (rsNext - rsCur))]

/-- Models ckb_bf_base/src/instruction_table.rs lines 102-117. -/
def gateInstPrp (s : Selector) (ip ci ni prp : Nat) (ch : Nat × Nat × Nat × Nat) :
    Conf (List Expr) := do
  let ipCur ← Conf.queryAdvice ip 0
  let ipNext ← Conf.queryAdvice ip 1
  let ci ← Conf.queryAdvice ci 0
  let ni ← Conf.queryAdvice ni 0
  let prpNext ← Conf.queryAdvice prp 1
  let prpCur ← Conf.queryAdvice prp 0
  let (alpha, d, e, f) := ch
  return [.selector s * ((ipNext - ipCur - .const 1)
      * (prpNext - prpCur * (.challenge alpha - .challenge d * ipCur - .challenge e * ci
        - .challenge f * ni))
    + (ipCur - ipNext) * (prpCur - prpNext))]

/-- Models ckb_bf_base/src/instruction_table.rs lines 124-136. -/
def gateInstAdhoc (s : Selector) (ip ci ni prp : Nat) (ch : Nat × Nat × Nat × Nat) :
    Conf (List Expr) := do
  let ipPrev ← Conf.queryAdvice ip (-1)
  let ciPrev ← Conf.queryAdvice ci (-1)
  let niPrev ← Conf.queryAdvice ni (-1)
  let prpPrev ← Conf.queryAdvice prp (-1)
  let prpCur ← Conf.queryAdvice prp 0
  let (alpha, d, e, f) := ch
  return [.selector s * (prpCur - prpPrev * (.challenge alpha - .challenge d * ipPrev
    - .challenge e * ciPrev - .challenge f * niPrev))]

/-- Models ckb_bf_base/src/instruction_table.rs lines 86-137. -/
def InstructionConfig.secondPhase (c : InstructionConfig) (ch : BFChallenge) : Conf Unit := do
  Conf.createGate (gateInstRs c.sRs c.ip c.ci c.rs ch.instRs)
  Conf.createGate (gateInstPrp c.sPrp c.ip c.ci c.ni c.prp ch.inst)
  Conf.createGate (gateInstAdhoc c.sPrpAdhoc c.ip c.ci c.ni c.prp ch.inst)

/-- The running sum gate of the output, input and program tables.
Models ckb_bf_base/src/output_table.rs lines 37-44, ckb_bf_base/src/input_table.rs lines 46-53 and
ckb_bf_base/src/program_table.rs lines 46-53. -/
def gateRs (s : Selector) (val rs gamma : Nat) : Conf (List Expr) := do
  let val ← Conf.queryAdvice val 0
  let cur ← Conf.queryAdvice rs 0
  let next ← Conf.queryAdvice rs 1
  return [.selector s * (next - (cur * .challenge gamma + val))]

/-- Models ckb_bf_base/src/output_table.rs lines 20-25. -/
structure OutputConfig where
  val : Nat
  rs : Nat
  sRs : Selector
  deriving DecidableEq

/-- Models ckb_bf_base/src/output_table.rs lines 28-34. -/
def OutputConfig.configure : Conf OutputConfig := do
  let val ← Conf.adviceColumnIn 0
  let rs ← Conf.adviceColumnIn 1
  Conf.enableEquality (.advice rs)
  let sRs ← Conf.selector
  return { val, rs, sRs }

/-- Models ckb_bf_base/src/input_table.rs lines 20-26. -/
structure InputConfig where
  val : Nat
  inputLen : Nat
  rs : Nat
  sRs : Selector
  deriving DecidableEq

/-- Models ckb_bf_base/src/input_table.rs lines 29-43. -/
def InputConfig.configure : Conf InputConfig := do
  let val ← Conf.adviceColumnIn 0
  let inputLen ← Conf.adviceColumnIn 0
  let rs ← Conf.adviceColumnIn 1
  Conf.enableEquality (.advice val)
  Conf.enableEquality (.advice rs)
  Conf.enableEquality (.advice inputLen)
  let sRs ← Conf.selector
  return { val, inputLen, rs, sRs }

/-- Models ckb_bf_base/src/program_table.rs lines 21-27. -/
structure ProgramConfig where
  programLen : Nat
  code : Nat
  codeRs : Nat
  sRs : Selector
  deriving DecidableEq

/-- Models ckb_bf_base/src/program_table.rs lines 30-44. -/
def ProgramConfig.configure : Conf ProgramConfig := do
  let code ← Conf.adviceColumnIn 0
  let programLen ← Conf.adviceColumnIn 0
  let codeRs ← Conf.adviceColumnIn 1
  let sRs ← Conf.selector
  Conf.enableEquality (.advice programLen)
  Conf.enableEquality (.advice code)
  Conf.enableEquality (.advice codeRs)
  return { programLen, code, codeRs, sRs }

/-- Models ckb_bf_base/src/main_config.rs lines 20-33. -/
structure MainConfig where
  p : ProcessorConfig
  m : MemoryConfig
  i : InstructionConfig
  output : OutputConfig
  input : InputConfig
  program : ProgramConfig
  codeInst : Nat
  inputInst : Nat
  ch : BFChallenge

/-- `MainConfig::configure`. Models ckb_bf_base/src/main_config.rs lines 36-69. -/
def MainConfig.configure (range : Nat) : Conf MainConfig := do
  let codeInst ← Conf.instanceColumn
  Conf.enableEquality (.instance_ codeInst)
  let inputInst ← Conf.instanceColumn
  Conf.enableEquality (.instance_ inputInst)
  let p ← ProcessorConfig.configure range
  let m ← MemoryConfig.configure
  let i ← InstructionConfig.configure
  let output ← OutputConfig.configure
  let input ← InputConfig.configure
  let program ← ProgramConfig.configure
  let ch ← BFChallenge.init
  m.secondPhase ch
  p.secondPhase ch
  i.secondPhase ch
  Conf.createGate (gateRs output.sRs output.val output.rs ch.outputRs)
  Conf.createGate (gateRs input.sRs input.val input.rs ch.inputRs)
  Conf.createGate (gateRs program.sRs program.code program.codeRs ch.instRs)
  return { p, m, i, output, input, program, codeInst, inputInst, ch }

/-- `DOMAIN`. Models ckb_bf_base/src/utils.rs line 35. -/
def DOMAIN : Nat := 256

/-- The constraint system and configuration of `MyCircuit<Fr, DOMAIN>`. -/
def mainCS : CS := (MainConfig.configure DOMAIN {}).2

/-- The configuration returned by `configure`. -/
def mainConfig : MainConfig := (MainConfig.configure DOMAIN {}).1

end Verif
