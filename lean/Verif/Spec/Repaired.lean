import Verif.Spec.Accepts
import Verif.Spec.Arguments

/-! Constraints the circuit lacks, and how many challenges help a cheating prover. -/

namespace Verif.Spec

open BF

/-- The values of the eleven challenges for which a prover that committed to the first-phase columns
`adv` can complete them to an accepted assignment with property `bad`. -/
def Convincing (n : Nat) (mx : Matrix) (code input : List Fr) (adv : Nat → Nat → Fr)
    (bad : Grid → Prop) : Set (Fin 11 → Fr) :=
  {x | ∃ g, Accepts n mx (publicInputs code input) g ∧ (∀ i : Fin 11, g.challenge i = x i) ∧
    (∀ c r, FirstPhase c → g.advice c r = adv c r) ∧ bad g}

/-- At most `n` in `P` of all values of the eleven challenges. -/
def Rare (n : Nat) (s : Set (Fin 11 → Fr)) : Prop := s.ncard * P ≤ n * P ^ 11

/-- The memory products of the processor table and of the memory table start from the same nonzero
value. -/
def MemStarts (g : Grid) : Prop :=
  g.advice mainConfig.p.memPrp 0 = g.advice mainConfig.m.prp 0 ∧ g.advice mainConfig.m.prp 0 ≠ 0

/-- The instruction products start from the same nonzero value. -/
def InsStarts (g : Grid) : Prop :=
  g.advice mainConfig.p.instPrp 0 = g.advice mainConfig.i.prp 0 ∧ g.advice mainConfig.i.prp 0 ≠ 0

/-- The sums over the program words start from 0, and the one in the instruction table does not
change in the row after the table. -/
structure ProgramSums (mx : Matrix) (g : Grid) : Prop where
  ins : g.advice mainConfig.i.rs 0 = 0
  prog : g.advice mainConfig.program.codeRs 0 = 0
  stop : g.advice mainConfig.i.rs mx.instruction.length =
    g.advice mainConfig.i.rs (mx.instruction.length - 1)

/-- The same for the sums over the input. -/
structure InputSums (mx : Matrix) (g : Grid) : Prop where
  proc : g.advice mainConfig.p.inputRs 0 = 0
  inp : g.advice mainConfig.input.rs 0 = 0
  stop : g.advice mainConfig.p.inputRs mx.processor.length =
    g.advice mainConfig.p.inputRs (mx.processor.length - 1)

/-- The same for the sums over the output. -/
structure OutputSums (mx : Matrix) (g : Grid) : Prop where
  proc : g.advice mainConfig.p.outputRs 0 = 0
  out : g.advice mainConfig.output.rs 0 = 0
  stop : g.advice mainConfig.p.outputRs mx.processor.length =
    g.advice mainConfig.p.outputRs (mx.processor.length - 1)

/-- The memory table starts with cell 0 and lists the rows of a cell in the order of the clock. -/
structure MemOrder (mx : Matrix) (g : Grid) : Prop where
  first : g.advice mainConfig.m.mp 0 = 0
  order : ∀ k, k + 1 < mx.memory.length →
    g.advice mainConfig.m.mp (k + 1) = g.advice mainConfig.m.mp k →
    (g.advice mainConfig.m.clk k).val < (g.advice mainConfig.m.clk (k + 1)).val

/-- The instruction table goes from the first word of the program to the position after its last
word, and the second word listed for a position is the first word of the next. -/
structure InsOrder (mx : Matrix) (codeLen : Nat) (g : Grid) : Prop where
  first : g.advice mainConfig.i.ip 0 = 0
  last : g.advice mainConfig.i.ip (mx.instruction.length - 1) = (codeLen : Fr)
  next : ∀ k, k + 1 < mx.instruction.length →
    g.advice mainConfig.i.ip (k + 1) ≠ g.advice mainConfig.i.ip k →
    g.advice mainConfig.i.ni k = g.advice mainConfig.i.ci (k + 1)

/-- No row of the processor table but the last is past the end of the program. -/
def Running (mx : Matrix) (codeLen : Nat) (g : Grid) : Prop :=
  ∀ i, i + 1 < mx.processor.length → (row g i).ip ≠ (codeLen : Fr)

/-- The number of rows of the processor table, except the last, at a given command. -/
def commandCount (mx : Matrix) (g : Grid) (c : Cmd) : Nat :=
  ((List.range (mx.processor.length - 1)).filter fun i => (row g i).ci = (byteOf c : Fr)).length

/-- The rows of the memory table. -/
def memoryRows (mx : Matrix) (g : Grid) : List (Fr × Fr × Fr) :=
  (List.range mx.memory.length).map fun i =>
    (g.advice mainConfig.m.clk i, g.advice mainConfig.m.mp i, g.advice mainConfig.m.mv i)

/-- Clock, memory pointer and memory value of the rows of the processor table. -/
def accessRows (mx : Matrix) (g : Grid) : List (Fr × Fr × Fr) :=
  (List.range mx.processor.length).map fun i => ((row g i).clk, (row g i).mp, (row g i).mv)

/-- The rows of the instruction table before a row with the same instruction pointer, and its last
row. -/
def repeatedRows (mx : Matrix) (g : Grid) : List (Fr × Fr × Fr) :=
  ((List.range (mx.instruction.length - 1)).flatMap fun i =>
    if g.advice mainConfig.i.ip (i + 1) = g.advice mainConfig.i.ip i then
      [(g.advice mainConfig.i.ip i, g.advice mainConfig.i.ci i, g.advice mainConfig.i.ni i)]
    else []) ++
  [(g.advice mainConfig.i.ip (mx.instruction.length - 1),
    g.advice mainConfig.i.ci (mx.instruction.length - 1),
    g.advice mainConfig.i.ni (mx.instruction.length - 1))]

/-- Instruction pointer and the two fetched words of the rows of the processor table. -/
def fetchRows (mx : Matrix) (g : Grid) : List (Fr × Fr × Fr) :=
  (List.range mx.processor.length).map fun i => ((row g i).ip, (row g i).ci, (row g i).ni)

/-- Row `i` of the processor table fetches from the program: its instruction pointer is a position
of the program or the position after it, and the two words are those found there. -/
def FetchesFrom (code : List Fr) (r : Row) : Prop :=
  ∃ k : Nat, k ≤ code.length ∧ r.ip = (k : Fr) ∧ (∀ v, code[k]? = some v → r.ci = v) ∧
    (∀ v, code[k + 1]? = some v → r.ni = v)

/-- All missing constraints that concern the execution. -/
structure Repaired (mx : Matrix) (codeLen : Nat) (g : Grid) : Prop where
  memStarts : MemStarts g
  insStarts : InsStarts g
  programSums : ProgramSums mx g
  inputSums : InputSums mx g
  memOrder : MemOrder mx g
  insOrder : InsOrder mx codeLen g
  running : Running mx codeLen g
  reads : commandCount mx g .get = mx.input.length

end Verif.Spec
