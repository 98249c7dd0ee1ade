import Verif.Model.Prover
import Verif.Spec.BF
import Verif.Spec.Compiled
import Verif.Spec.RowStep

/-! What it means that the circuit accepts a (possibly dishonest) assignment, and what it should
mean. -/

namespace Verif.Spec

open BF

/-- The circuit, with the verifying key of a run with tables `mx` (which fixes the fixed columns,
the selectors and the copy constraints), accepts the full assignment `g` against the public inputs
`inst`. The advice columns of `g` are arbitrary. -/
def Accepts (n : Nat) (mx : Matrix) (inst : Nat → List Fr) (g : Grid) : Prop :=
  ∃ a, synthesize n mx g.challenge inst = .ok a ∧
    (∀ c r, r < mainCS.usableRows n → g.fixed c r = a.fixed c r) ∧
    (∀ s r, g.selector s r = a.selector s r) ∧
    (∀ i r, g.instance_ i r = (inst i).getD r 0) ∧
    Satisfied mainCS n g a.copies

/-- The advice columns the prover commits to before seeing the challenges. -/
def FirstPhase (c : Nat) : Prop := mainCS.advicePhase[c]? = some 0

/-- Tables of the same lengths. -/
structure SameShape (mx mx' : Matrix) : Prop where
  processor : mx'.processor.length = mx.processor.length
  memory : mx'.memory.length = mx.memory.length
  instruction : mx'.instruction.length = mx.instruction.length
  output : mx'.output.length = mx.output.length
  input : mx'.input.length = mx.input.length
  program : mx'.program.length = mx.program.length

/-- A cheating prover succeeds: it can commit to first-phase columns such that, whatever the
challenges are, the assignment can be completed to an accepted one with the property `bad`. The
verifying key is that of a run with tables `mx`, the public inputs are the program and the input. -/
def Forgeable (n : Nat) (mx : Matrix) (code input : List Fr) (bad : Grid → Prop) : Prop :=
  ∃ adv : Nat → Nat → Fr, ∀ ch : Nat → Fr, ∃ g, Accepts n mx (publicInputs code input) g ∧
    g.challenge = ch ∧ (∀ c r, FirstPhase c → g.advice c r = adv c r) ∧ bad g

/-- The first `len` rows of the processor table follow the textbook machine on program `p` and the
given input: row `i` shows the state after `i` steps. -/
def Genuine (p : List Cmd) (input : List Nat) (len : Nat) (g : Grid) : Prop :=
  ∀ i, i < len → ∃ t, Steps p 8 i (BF.init input) t ∧
    (row g i).clk = (i : Fr) ∧ (row g i).ip = (pos p t.pc : Fr) ∧
    (row g i).mp = (t.ptr : Fr) ∧ (row g i).mv = (t.tape t.ptr : Fr)

/-- The output table of an assignment. -/
def outputOf (g : Grid) (len : Nat) : List Fr :=
  (List.range len).map fun i => g.advice mainConfig.output.val i

end Verif.Spec
