import Verif.Model.Asm

/-! When the instructions of a field operation lose nothing. -/

namespace Verif.Asm

/-- Instructions after which the carry is not looked at any more: `adc r, 0`. -/
def dropsCarry : Instr → Bool
  | .adc _ (.imm 0) => true
  | _ => false

/-- No instruction `adc r, 0` of the run overflows. -/
def keepsCarries (e : Env) : List Instr → State → Bool
  | [], _ => true
  | i :: l, s => !(dropsCarry i && (exec e s i).cf) && keepsCarries e l (exec e s i)

/-- Registers hold words. -/
def Words (s : State) : Prop := ∀ r, s.reg r < 2 ^ 64

end Verif.Asm
