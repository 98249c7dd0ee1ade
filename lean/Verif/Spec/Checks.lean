import Verif.Spec.Repaired

/-! The checks the circuit lacks, one by one, and what an assignment should mean that passes them
all. -/

namespace Verif.Spec

open BF

/-- Twenty checks the circuit does not make. -/
inductive Check
  | memSameStart | memNonzeroStart | insSameStart | insNonzeroStart
  | insSumZero | programSumZero | insSumStop
  | procInputZero | inputZero | inputStop
  | procOutputZero | outputZero | outputStop
  | memFirst | memOrder | insLast | insNext
  | running | reads | writes
  deriving DecidableEq

/-- What each check says. -/
def Check.Holds (mx : Matrix) (codeLen : Nat) (g : Grid) : Check → Prop
  -- the memory products of the processor table and of the memory table start from the same value
  | .memSameStart => g.advice mainConfig.p.memPrp 0 = g.advice mainConfig.m.prp 0
  -- that of the memory table does not start from 0
  | .memNonzeroStart => g.advice mainConfig.m.prp 0 ≠ 0
  -- the same for the instruction products
  | .insSameStart => g.advice mainConfig.p.instPrp 0 = g.advice mainConfig.i.prp 0
  | .insNonzeroStart => g.advice mainConfig.i.prp 0 ≠ 0
  -- the sum over the words of the instruction table starts from 0
  | .insSumZero => g.advice mainConfig.i.rs 0 = 0
  -- the sum over the public program starts from 0
  | .programSumZero => g.advice mainConfig.program.codeRs 0 = 0
  -- the former does not change in the row after the table
  | .insSumStop => g.advice mainConfig.i.rs mx.instruction.length =
      g.advice mainConfig.i.rs (mx.instruction.length - 1)
  -- the same for the sums over what the program reads and over the public input
  | .procInputZero => g.advice mainConfig.p.inputRs 0 = 0
  | .inputZero => g.advice mainConfig.input.rs 0 = 0
  | .inputStop => g.advice mainConfig.p.inputRs mx.processor.length =
      g.advice mainConfig.p.inputRs (mx.processor.length - 1)
  -- the same for the sums over what the program prints and over the output table
  | .procOutputZero => g.advice mainConfig.p.outputRs 0 = 0
  | .outputZero => g.advice mainConfig.output.rs 0 = 0
  | .outputStop => g.advice mainConfig.p.outputRs mx.processor.length =
      g.advice mainConfig.p.outputRs (mx.processor.length - 1)
  -- the memory table starts with cell 0
  | .memFirst => g.advice mainConfig.m.mp 0 = 0
  -- the memory table lists the rows of a cell in the order of the clock
  | .memOrder => ∀ k, k + 1 < mx.memory.length →
      g.advice mainConfig.m.mp (k + 1) = g.advice mainConfig.m.mp k →
      (g.advice mainConfig.m.clk k).val < (g.advice mainConfig.m.clk (k + 1)).val
  -- the instruction table ends with the position after the last word of the program
  | .insLast => g.advice mainConfig.i.ip (mx.instruction.length - 1) = (codeLen : Fr)
  -- the second word listed for a position is the first word of the next
  | .insNext => ∀ k, k + 1 < mx.instruction.length →
      g.advice mainConfig.i.ip (k + 1) ≠ g.advice mainConfig.i.ip k →
      g.advice mainConfig.i.ni k = g.advice mainConfig.i.ci (k + 1)
  -- no row of the processor table but the last is past the end of the program
  | .running => ∀ i, i + 1 < mx.processor.length → (row g i).ip ≠ (codeLen : Fr)
  -- the program reads as many values as the input has
  | .reads => commandCount mx g .get = mx.input.length
  -- the program prints as many values as the output table has
  | .writes => commandCount mx g .put = mx.output.length

/-- What an accepted assignment should mean: the processor table shows the states of the textbook
machine on the public program and input, from the first to the last; the machine halts in the last;
it has read the whole input; and the output table is what it printed. -/
structure Faithful (p : List Cmd) (input : List Nat) (mx : Matrix) (g : Grid) : Prop where
  rows : Genuine p input mx.processor.length g
  result : ∃ t, Finishes p 8 input (mx.processor.length - 1) t ∧ t.input = [] ∧
    outputOf g mx.output.length = t.output.map fun (v : Nat) => (v : Fr)

/-- The program halts on the input and prints `out`. -/
def Prints (p : List Cmd) (input : List Nat) (out : List Fr) : Prop :=
  ∃ m t, Finishes p 8 input m t ∧ out = t.output.map fun (v : Nat) => (v : Fr)

/-- A check is needed: there is a good program and an input, a circuit shape with the right numbers
of program and input rows, and first-phase columns such that for all challenges, but for at most `n`
in `P`, they can be completed to an accepted assignment that passes all other checks and shows an
output the program does not print on the input. -/
def Needed (c : Check) (good : List UInt8 → List Fr → Prop) : Prop :=
  ∃ (src : List UInt8) (code : List Fr) (input : List Nat) (n : Nat) (mx : Matrix)
    (adv : Nat → Nat → Fr), good src code ∧ (∀ v ∈ input, v < 256) ∧ n < P ∧
    0 < mx.instruction.length ∧ mx.program.length = code.length ∧
    mx.input.length = input.length ∧
    Rare n (Convincing n mx code (input.map fun (v : Nat) => (v : Fr)) adv (fun g =>
      (∀ c', c' ≠ c → c'.Holds mx code.length g) ∧
      ¬ Prints (commands src) input (outputOf g mx.output.length)))ᶜ

end Verif.Spec
