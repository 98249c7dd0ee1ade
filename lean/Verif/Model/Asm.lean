import Verif.Model.FieldArith

/-!
The arithmetic of the fields `Fq` and `Fr` with the feature `asm` of halo2curves:
`halo2curves/src/bn256/assembly.rs`, used in `bn256/fq.rs` lines 116-117 and `bn256/fr.rs` lines 141-142. The feature is
off by default. The instructions are those of the file; their meaning is that of the x86-64 manual, restricted to the
carry and the zero flag. Registers and flags hold anything at the beginning.
-/

namespace Verif.Asm

/-- The registers named in halo2curves/src/bn256/assembly.rs. -/
inductive Reg where
  | rax | rcx | rdx | r8 | r9 | r10 | r11 | r12 | r13 | r14 | r15
  deriving DecidableEq, Repr

/-- The arrays the operands point to: the first argument, the second, the modulus. Models `a_ptr`, `b_ptr`, `m_ptr`,
for example halo2curves/src/bn256/assembly.rs lines 48-49 and 807-809. -/
inductive Ptr where
  | a | b | m
  deriving DecidableEq, Repr

/-- Operands: a register, the word with that index of an array (`qword ptr [p + 8 * i]`), a number, the constant
`inv` of the macro, halo2curves/src/bn256/assembly.rs line 5. -/
inductive Operand where
  | reg (r : Reg)
  | mem (p : Ptr) (i : Nat)
  | imm (n : Nat)
  | inv
  deriving DecidableEq, Repr

/-- The instructions used in halo2curves/src/bn256/assembly.rs, destination first; `mulx` has two destinations, the
first for the high word. -/
inductive Instr where
  | mov (d : Reg) (s : Operand)
  | add (d : Reg) (s : Operand)
  | adc (d : Reg) (s : Operand)
  | adcx (d : Reg) (s : Operand)
  | sub (d : Reg) (s : Operand)
  | sbb (d : Reg) (s : Operand)
  | mulx (hi lo : Reg) (s : Operand)
  | xor (d : Reg) (s : Operand)
  | or (d : Reg) (s : Operand)
  | and (d : Reg) (s : Operand)
  | cmp (d : Reg) (s : Operand)
  | cmovc (d : Reg) (s : Operand)
  | cmove (d : Reg) (s : Operand)
  deriving DecidableEq, Repr

/-- What the instructions read but do not change: the arrays and the constant. -/
structure Env where
  a : Nat → Nat
  b : Nat → Nat
  m : Nat → Nat
  inv : Nat

/-- Registers, carry flag and zero flag. -/
structure State where
  reg : Reg → Nat
  cf : Bool
  zf : Bool

/-- The value of an operand. -/
def read (e : Env) (s : State) : Operand → Nat
  | .reg r => s.reg r
  | .mem .a i => e.a i
  | .mem .b i => e.b i
  | .mem .m i => e.m i
  | .imm n => n
  | .inv => e.inv

/-- Writing a register. -/
def State.set (s : State) (d : Reg) (v : Nat) : State := { s with reg := fun r => if r = d then v else s.reg r }

/-- Addition with a carry; the low word is kept and the flags are set (`adcx` leaves the zero flag alone, which is
not looked at before it is set again). -/
def State.addTo (s : State) (d : Reg) (v carry : Nat) : State :=
  { s.set d ((s.reg d + v + carry) % W64) with cf := decide (W64 ≤ s.reg d + v + carry) }

/-- Subtraction with a borrow. -/
def State.subFrom (s : State) (d : Reg) (v borrow : Nat) : State :=
  { s.set d ((s.reg d + 2 * W64 - v - borrow) % W64) with cf := decide (s.reg d < v + borrow) }

/-- One instruction. The meaning of the instructions in halo2curves/src/bn256/assembly.rs by the manual of the
processor; flags other than carry and zero, and the zero flag after additions and subtractions, are dropped. -/
def exec (e : Env) (s : State) : Instr → State
  | .mov d x => s.set d (read e s x)
  | .add d x => s.addTo d (read e s x) 0
  | .adc d x => s.addTo d (read e s x) s.cf.toNat
  | .adcx d x => s.addTo d (read e s x) s.cf.toNat
  | .sub d x => s.subFrom d (read e s x) 0
  | .sbb d x => s.subFrom d (read e s x) s.cf.toNat
  | .mulx hi lo x => (s.set lo (s.reg .rdx * read e s x % W64)).set hi (s.reg .rdx * read e s x / W64)
  | .xor d x => { s.set d (s.reg d ^^^ read e s x) with cf := false }
  | .or d x => { s.set d (s.reg d ||| read e s x) with cf := false }
  | .and d x => { s.set d (s.reg d &&& read e s x) with cf := false }
  | .cmp d x => { s with cf := decide (s.reg d < read e s x), zf := decide (s.reg d = read e s x) }
  | .cmovc d x => if s.cf then s.set d (read e s x) else s
  | .cmove d x => if s.zf then s.set d (read e s x) else s

/-- A sequence of instructions. -/
def run (e : Env) (l : List Instr) (s : State) : State := l.foldl (exec e) s

/-- The instructions of `double`. Models halo2curves/src/bn256/assembly.rs lines 12-63. -/
def doubleAsm : List Instr :=
  [.mov .r8 (.mem .a 0), .mov .r9 (.mem .a 1), .mov .r10 (.mem .a 2), .mov .r11 (.mem .a 3), .add .r8 (.reg .r8),
   .adcx .r9 (.reg .r9), .adcx .r10 (.reg .r10), .adcx .r11 (.reg .r11), .mov .r12 (.reg .r8),
   .mov .r13 (.reg .r9), .mov .r14 (.reg .r10), .mov .r15 (.reg .r11), .sub .r12 (.mem .m 0),
   .sbb .r13 (.mem .m 1), .sbb .r14 (.mem .m 2), .sbb .r15 (.mem .m 3), .cmovc .r12 (.reg .r8),
   .cmovc .r13 (.reg .r9), .cmovc .r14 (.reg .r10), .cmovc .r15 (.reg .r11)]

/-- The instructions of `square`. Models halo2curves/src/bn256/assembly.rs lines 67-352. -/
def squareAsm : List Instr :=
  [.mov .r13 (.mem .a 0), .mov .r14 (.mem .a 1), .mov .r15 (.mem .a 2), .mov .rdx (.reg .r13),
   .mulx .r9 .r8 (.reg .r13), .mulx .r10 .rax (.reg .r14), .add .r9 (.reg .rax), .mulx .r11 .rax (.reg .r15),
   .adcx .r10 (.reg .rax), .mulx .r12 .rax (.mem .a 3), .adcx .r11 (.reg .rax), .adc .r12 (.imm 0),
   .mov .rdx (.reg .r14), .mulx .rcx .rax (.reg .r13), .add .r9 (.reg .rax), .adcx .r10 (.reg .rcx),
   .adc .r11 (.imm 0), .mulx .rcx .rax (.reg .r14), .add .r10 (.reg .rax), .adcx .r11 (.reg .rcx),
   .adc .r12 (.imm 0), .xor .r13 (.reg .r13), .mulx .rcx .rax (.reg .r15), .add .r11 (.reg .rax),
   .adcx .r12 (.reg .rcx), .adc .r13 (.imm 0), .xor .r14 (.reg .r14), .mulx .rcx .rax (.mem .a 3),
   .add .r12 (.reg .rax), .adcx .r13 (.reg .rcx), .adc .r14 (.imm 0), .mov .rdx (.reg .r15),
   .mulx .rcx .rax (.mem .a 0), .add .r10 (.reg .rax), .adcx .r11 (.reg .rcx), .adc .r12 (.imm 0),
   .mulx .rcx .rax (.mem .a 1), .add .r11 (.reg .rax), .adcx .r12 (.reg .rcx), .adc .r13 (.imm 0),
   .mulx .rcx .rax (.reg .r15), .add .r12 (.reg .rax), .adcx .r13 (.reg .rcx), .adc .r14 (.imm 0),
   .xor .r15 (.reg .r15), .mulx .rcx .rax (.mem .a 3), .add .r13 (.reg .rax), .adcx .r14 (.reg .rcx),
   .adc .r15 (.imm 0), .mov .rdx (.mem .a 3), .mulx .rcx .rax (.mem .a 0), .add .r11 (.reg .rax),
   .adcx .r12 (.reg .rcx), .adc .r13 (.imm 0), .mulx .rcx .rax (.mem .a 1), .add .r12 (.reg .rax),
   .adcx .r13 (.reg .rcx), .adc .r14 (.imm 0), .mulx .rcx .rax (.mem .a 2), .add .r13 (.reg .rax),
   .adcx .r14 (.reg .rcx), .adc .r15 (.imm 0), .mulx .rcx .rax (.mem .a 3), .add .r14 (.reg .rax),
   .adc .r15 (.reg .rcx), .mov .rdx .inv, .mulx .rax .rdx (.reg .r8), .mulx .rcx .rax (.mem .m 0),
   .add .r8 (.reg .rax), .adcx .r9 (.reg .rcx), .adc .r10 (.imm 0), .mulx .rcx .rax (.mem .m 1),
   .add .r9 (.reg .rax), .adcx .r10 (.reg .rcx), .adc .r11 (.imm 0), .mulx .rcx .rax (.mem .m 2),
   .add .r10 (.reg .rax), .adcx .r11 (.reg .rcx), .adc .r12 (.imm 0), .mulx .rcx .rax (.mem .m 3),
   .add .r11 (.reg .rax), .adcx .r12 (.reg .rcx), .adc .r13 (.imm 0), .mov .rdx .inv, .mulx .rax .rdx (.reg .r9),
   .mulx .rax .rcx (.mem .m 0), .add .r9 (.reg .rcx), .adcx .r10 (.reg .rax), .adc .r11 (.imm 0),
   .mulx .rax .rcx (.mem .m 1), .add .r10 (.reg .rcx), .adcx .r11 (.reg .rax), .adc .r12 (.imm 0),
   .mulx .rax .rcx (.mem .m 2), .add .r11 (.reg .rcx), .adcx .r12 (.reg .rax), .adc .r13 (.imm 0),
   .mulx .rax .rcx (.mem .m 3), .add .r12 (.reg .rcx), .adcx .r13 (.reg .rax), .adc .r14 (.imm 0),
   .mov .rdx .inv, .mulx .rax .rdx (.reg .r10), .mulx .rax .rcx (.mem .m 0), .add .r10 (.reg .rcx),
   .adcx .r11 (.reg .rax), .adc .r12 (.imm 0), .mulx .rax .rcx (.mem .m 1), .add .r11 (.reg .rcx),
   .adcx .r12 (.reg .rax), .adc .r13 (.imm 0), .mulx .rax .rcx (.mem .m 2), .add .r12 (.reg .rcx),
   .adcx .r13 (.reg .rax), .adc .r14 (.imm 0), .mulx .rax .rcx (.mem .m 3), .add .r13 (.reg .rcx),
   .adcx .r14 (.reg .rax), .adc .r15 (.imm 0), .mov .rdx .inv, .mulx .rax .rdx (.reg .r11),
   .mulx .rax .rcx (.mem .m 0), .add .r11 (.reg .rcx), .adcx .r12 (.reg .rax), .adc .r13 (.imm 0),
   .mulx .rax .rcx (.mem .m 1), .add .r12 (.reg .rcx), .adcx .r13 (.reg .rax), .adc .r14 (.imm 0),
   .mulx .rax .rcx (.mem .m 2), .add .r13 (.reg .rcx), .adcx .r14 (.reg .rax), .adc .r15 (.imm 0),
   .mulx .rax .rcx (.mem .m 3), .add .r14 (.reg .rcx), .adcx .r15 (.reg .rax), .mov .r8 (.reg .r12),
   .mov .r9 (.reg .r13), .mov .r10 (.reg .r14), .mov .r11 (.reg .r15), .sub .r8 (.mem .m 0),
   .sbb .r9 (.mem .m 1), .sbb .r10 (.mem .m 2), .sbb .r11 (.mem .m 3), .cmovc .r8 (.reg .r12),
   .cmovc .r9 (.reg .r13), .cmovc .r10 (.reg .r14), .cmovc .r11 (.reg .r15), .mov .r12 (.reg .r8),
   .mov .r13 (.reg .r9), .mov .r14 (.reg .r10), .mov .r15 (.reg .r11), .sub .r12 (.mem .m 0),
   .sbb .r13 (.mem .m 1), .sbb .r14 (.mem .m 2), .sbb .r15 (.mem .m 3), .cmovc .r12 (.reg .r8),
   .cmovc .r13 (.reg .r9), .cmovc .r14 (.reg .r10), .cmovc .r15 (.reg .r11)]

/-- The instructions of `montgomery_reduce`. Models halo2curves/src/bn256/assembly.rs lines 355-537. -/
def reduceAsm : List Instr :=
  [.mov .r8 (.mem .a 0), .mov .r9 (.mem .a 1), .mov .r10 (.mem .a 2), .mov .r11 (.mem .a 3),
   .mov .r12 (.mem .a 4), .mov .r13 (.mem .a 5), .mov .r14 (.mem .a 6), .mov .r15 (.mem .a 7), .mov .rdx .inv,
   .mulx .rax .rdx (.reg .r8), .mulx .rcx .rax (.mem .m 0), .add .r8 (.reg .rax), .adcx .r9 (.reg .rcx),
   .adc .r10 (.imm 0), .mulx .rcx .rax (.mem .m 1), .add .r9 (.reg .rax), .adcx .r10 (.reg .rcx),
   .adc .r11 (.imm 0), .mulx .rcx .rax (.mem .m 2), .add .r10 (.reg .rax), .adcx .r11 (.reg .rcx),
   .adc .r12 (.imm 0), .mulx .rcx .rax (.mem .m 3), .add .r11 (.reg .rax), .adcx .r12 (.reg .rcx),
   .adc .r13 (.imm 0), .mov .rdx .inv, .mulx .rax .rdx (.reg .r9), .mulx .rax .rcx (.mem .m 0),
   .add .r9 (.reg .rcx), .adcx .r10 (.reg .rax), .adc .r11 (.imm 0), .mulx .rax .rcx (.mem .m 1),
   .add .r10 (.reg .rcx), .adcx .r11 (.reg .rax), .adc .r12 (.imm 0), .mulx .rax .rcx (.mem .m 2),
   .add .r11 (.reg .rcx), .adcx .r12 (.reg .rax), .adc .r13 (.imm 0), .mulx .rax .rcx (.mem .m 3),
   .add .r12 (.reg .rcx), .adcx .r13 (.reg .rax), .adc .r14 (.imm 0), .mov .rdx .inv,
   .mulx .rax .rdx (.reg .r10), .mulx .rax .rcx (.mem .m 0), .add .r10 (.reg .rcx), .adcx .r11 (.reg .rax),
   .adc .r12 (.imm 0), .mulx .rax .rcx (.mem .m 1), .add .r11 (.reg .rcx), .adcx .r12 (.reg .rax),
   .adc .r13 (.imm 0), .mulx .rax .rcx (.mem .m 2), .add .r12 (.reg .rcx), .adcx .r13 (.reg .rax),
   .adc .r14 (.imm 0), .mulx .rax .rcx (.mem .m 3), .add .r13 (.reg .rcx), .adcx .r14 (.reg .rax),
   .adc .r15 (.imm 0), .mov .rdx .inv, .mulx .rax .rdx (.reg .r11), .mulx .rax .rcx (.mem .m 0),
   .add .r11 (.reg .rcx), .adcx .r12 (.reg .rax), .adc .r13 (.imm 0), .mulx .rax .rcx (.mem .m 1),
   .add .r12 (.reg .rcx), .adcx .r13 (.reg .rax), .adc .r14 (.imm 0), .mulx .rax .rcx (.mem .m 2),
   .add .r13 (.reg .rcx), .adcx .r14 (.reg .rax), .adc .r15 (.imm 0), .mulx .rax .rcx (.mem .m 3),
   .add .r14 (.reg .rcx), .adcx .r15 (.reg .rax), .mov .r8 (.reg .r12), .mov .r9 (.reg .r13),
   .mov .r10 (.reg .r14), .mov .r11 (.reg .r15), .sub .r8 (.mem .m 0), .sbb .r9 (.mem .m 1),
   .sbb .r10 (.mem .m 2), .sbb .r11 (.mem .m 3), .cmovc .r8 (.reg .r12), .cmovc .r9 (.reg .r13),
   .cmovc .r10 (.reg .r14), .cmovc .r11 (.reg .r15), .mov .r12 (.reg .r8), .mov .r13 (.reg .r9),
   .mov .r14 (.reg .r10), .mov .r15 (.reg .r11), .sub .r12 (.mem .m 0), .sbb .r13 (.mem .m 1),
   .sbb .r14 (.mem .m 2), .sbb .r15 (.mem .m 3), .cmovc .r12 (.reg .r8), .cmovc .r13 (.reg .r9),
   .cmovc .r14 (.reg .r10), .cmovc .r15 (.reg .r11)]

/-- The instructions of `mul`. Models halo2curves/src/bn256/assembly.rs lines 541-827. -/
def mulAsm : List Instr :=
  [.mov .r13 (.mem .b 0), .mov .r14 (.mem .b 1), .mov .r15 (.mem .b 2), .mov .rdx (.mem .a 0),
   .mulx .r9 .r8 (.reg .r13), .mulx .r10 .rax (.reg .r14), .add .r9 (.reg .rax), .mulx .r11 .rax (.reg .r15),
   .adcx .r10 (.reg .rax), .mulx .r12 .rax (.mem .b 3), .adcx .r11 (.reg .rax), .adc .r12 (.imm 0),
   .mov .rdx (.mem .a 1), .mulx .rcx .rax (.reg .r13), .add .r9 (.reg .rax), .adcx .r10 (.reg .rcx),
   .adc .r11 (.imm 0), .mulx .rcx .rax (.reg .r14), .add .r10 (.reg .rax), .adcx .r11 (.reg .rcx),
   .adc .r12 (.imm 0), .xor .r13 (.reg .r13), .mulx .rcx .rax (.reg .r15), .add .r11 (.reg .rax),
   .adcx .r12 (.reg .rcx), .adc .r13 (.imm 0), .xor .r14 (.reg .r14), .mulx .rcx .rax (.mem .b 3),
   .add .r12 (.reg .rax), .adcx .r13 (.reg .rcx), .adc .r14 (.imm 0), .mov .rdx (.mem .a 2),
   .mulx .rcx .rax (.mem .b 0), .add .r10 (.reg .rax), .adcx .r11 (.reg .rcx), .adc .r12 (.imm 0),
   .mulx .rcx .rax (.mem .b 1), .add .r11 (.reg .rax), .adcx .r12 (.reg .rcx), .adc .r13 (.imm 0),
   .mulx .rcx .rax (.reg .r15), .add .r12 (.reg .rax), .adcx .r13 (.reg .rcx), .adc .r14 (.imm 0),
   .xor .r15 (.reg .r15), .mulx .rcx .rax (.mem .b 3), .add .r13 (.reg .rax), .adcx .r14 (.reg .rcx),
   .adc .r15 (.imm 0), .mov .rdx (.mem .a 3), .mulx .rcx .rax (.mem .b 0), .add .r11 (.reg .rax),
   .adcx .r12 (.reg .rcx), .adc .r13 (.imm 0), .mulx .rcx .rax (.mem .b 1), .add .r12 (.reg .rax),
   .adcx .r13 (.reg .rcx), .adc .r14 (.imm 0), .mulx .rcx .rax (.mem .b 2), .add .r13 (.reg .rax),
   .adcx .r14 (.reg .rcx), .adc .r15 (.imm 0), .mulx .rcx .rax (.mem .b 3), .add .r14 (.reg .rax),
   .adc .r15 (.reg .rcx), .mov .rdx .inv, .mulx .rax .rdx (.reg .r8), .mulx .rcx .rax (.mem .m 0),
   .add .r8 (.reg .rax), .adcx .r9 (.reg .rcx), .adc .r10 (.imm 0), .mulx .rcx .rax (.mem .m 1),
   .add .r9 (.reg .rax), .adcx .r10 (.reg .rcx), .adc .r11 (.imm 0), .mulx .rcx .rax (.mem .m 2),
   .add .r10 (.reg .rax), .adcx .r11 (.reg .rcx), .adc .r12 (.imm 0), .mulx .rcx .rax (.mem .m 3),
   .add .r11 (.reg .rax), .adcx .r12 (.reg .rcx), .adc .r13 (.imm 0), .mov .rdx .inv, .mulx .rax .rdx (.reg .r9),
   .mulx .rax .rcx (.mem .m 0), .add .r9 (.reg .rcx), .adcx .r10 (.reg .rax), .adc .r11 (.imm 0),
   .mulx .rax .rcx (.mem .m 1), .add .r10 (.reg .rcx), .adcx .r11 (.reg .rax), .adc .r12 (.imm 0),
   .mulx .rax .rcx (.mem .m 2), .add .r11 (.reg .rcx), .adcx .r12 (.reg .rax), .adc .r13 (.imm 0),
   .mulx .rax .rcx (.mem .m 3), .add .r12 (.reg .rcx), .adcx .r13 (.reg .rax), .adc .r14 (.imm 0),
   .mov .rdx .inv, .mulx .rax .rdx (.reg .r10), .mulx .rax .rcx (.mem .m 0), .add .r10 (.reg .rcx),
   .adcx .r11 (.reg .rax), .adc .r12 (.imm 0), .mulx .rax .rcx (.mem .m 1), .add .r11 (.reg .rcx),
   .adcx .r12 (.reg .rax), .adc .r13 (.imm 0), .mulx .rax .rcx (.mem .m 2), .add .r12 (.reg .rcx),
   .adcx .r13 (.reg .rax), .adc .r14 (.imm 0), .mulx .rax .rcx (.mem .m 3), .add .r13 (.reg .rcx),
   .adcx .r14 (.reg .rax), .adc .r15 (.imm 0), .mov .rdx .inv, .mulx .rax .rdx (.reg .r11),
   .mulx .rax .rcx (.mem .m 0), .add .r11 (.reg .rcx), .adcx .r12 (.reg .rax), .adc .r13 (.imm 0),
   .mulx .rax .rcx (.mem .m 1), .add .r12 (.reg .rcx), .adcx .r13 (.reg .rax), .adc .r14 (.imm 0),
   .mulx .rax .rcx (.mem .m 2), .add .r13 (.reg .rcx), .adcx .r14 (.reg .rax), .adc .r15 (.imm 0),
   .mulx .rax .rcx (.mem .m 3), .add .r14 (.reg .rcx), .adcx .r15 (.reg .rax), .mov .r8 (.reg .r12),
   .mov .r9 (.reg .r13), .mov .r10 (.reg .r14), .mov .r11 (.reg .r15), .sub .r8 (.mem .m 0),
   .sbb .r9 (.mem .m 1), .sbb .r10 (.mem .m 2), .sbb .r11 (.mem .m 3), .cmovc .r8 (.reg .r12),
   .cmovc .r9 (.reg .r13), .cmovc .r10 (.reg .r14), .cmovc .r11 (.reg .r15), .mov .r12 (.reg .r8),
   .mov .r13 (.reg .r9), .mov .r14 (.reg .r10), .mov .r15 (.reg .r11), .sub .r12 (.mem .m 0),
   .sbb .r13 (.mem .m 1), .sbb .r14 (.mem .m 2), .sbb .r15 (.mem .m 3), .cmovc .r12 (.reg .r8),
   .cmovc .r13 (.reg .r9), .cmovc .r14 (.reg .r10), .cmovc .r15 (.reg .r11)]

/-- The instructions of `sub`. Models halo2curves/src/bn256/assembly.rs lines 831-883. -/
def subAsm : List Instr :=
  [.xor .r12 (.reg .r12), .xor .r13 (.reg .r13), .xor .r14 (.reg .r14), .xor .r15 (.reg .r15),
   .mov .r8 (.mem .a 0), .mov .r9 (.mem .a 1), .mov .r10 (.mem .a 2), .mov .r11 (.mem .a 3),
   .sub .r8 (.mem .b 0), .sbb .r9 (.mem .b 1), .sbb .r10 (.mem .b 2), .sbb .r11 (.mem .b 3),
   .cmovc .r12 (.mem .m 0), .cmovc .r13 (.mem .m 1), .cmovc .r14 (.mem .m 2), .cmovc .r15 (.mem .m 3),
   .add .r12 (.reg .r8), .adcx .r13 (.reg .r9), .adcx .r14 (.reg .r10), .adcx .r15 (.reg .r11)]

/-- The instructions of `add`. Models halo2curves/src/bn256/assembly.rs lines 887-939. -/
def addAsm : List Instr :=
  [.mov .r8 (.mem .a 0), .mov .r9 (.mem .a 1), .mov .r10 (.mem .a 2), .mov .r11 (.mem .a 3),
   .add .r8 (.mem .b 0), .adcx .r9 (.mem .b 1), .adcx .r10 (.mem .b 2), .adcx .r11 (.mem .b 3),
   .mov .r12 (.reg .r8), .mov .r13 (.reg .r9), .mov .r14 (.reg .r10), .mov .r15 (.reg .r11),
   .sub .r12 (.mem .m 0), .sbb .r13 (.mem .m 1), .sbb .r14 (.mem .m 2), .sbb .r15 (.mem .m 3),
   .cmovc .r12 (.reg .r8), .cmovc .r13 (.reg .r9), .cmovc .r14 (.reg .r10), .cmovc .r15 (.reg .r11)]

/-- The instructions of `neg`. Models halo2curves/src/bn256/assembly.rs lines 943-993. -/
def negAsm : List Instr :=
  [.mov .r8 (.mem .m 0), .mov .r9 (.mem .m 1), .mov .r10 (.mem .m 2), .mov .r11 (.mem .m 3),
   .sub .r8 (.mem .a 0), .sbb .r9 (.mem .a 1), .sbb .r10 (.mem .a 2), .sbb .r11 (.mem .a 3),
   .mov .r12 (.mem .a 0), .mov .r13 (.mem .a 1), .mov .r14 (.mem .a 2), .mov .r15 (.mem .a 3),
   .or .r12 (.reg .r13), .or .r14 (.reg .r15), .or .r12 (.reg .r14), .mov .r13 (.imm 0xffffffffffffffff),
   .cmp .r12 (.imm 0x0000000000000000), .cmove .r13 (.reg .r12), .and .r8 (.reg .r13), .and .r9 (.reg .r13),
   .and .r10 (.reg .r13), .and .r11 (.reg .r13)]

/-- The word with that index of an array of four. -/
def word4 (a : Limbs) : Nat → Nat
  | 0 => a.l0
  | 1 => a.l1
  | 2 => a.l2
  | 3 => a.l3
  | _ => 0

/-- The word with that index of an array of eight. -/
def word8 (a : Limbs8) : Nat → Nat
  | 0 => a.l0
  | 1 => a.l1
  | 2 => a.l2
  | 3 => a.l3
  | 4 => a.l4
  | 5 => a.l5
  | 6 => a.l6
  | 7 => a.l7
  | _ => 0

/-- The arrays of an operation with two arguments (with one: given twice) on a field. Models the operands given to the
`asm!` blocks, for example halo2curves/src/bn256/assembly.rs lines 807-810. -/
def env (c : FieldConsts) (a b : Limbs) : Env := ⟨word4 a, word4 b, word4 c.modulus, c.inv⟩

/-- The result in `r12` to `r15`, for example halo2curves/src/bn256/assembly.rs lines 54-57 and 62. -/
def high (s : State) : Limbs := ⟨s.reg .r12, s.reg .r13, s.reg .r14, s.reg .r15⟩

/-- The result in `r8` to `r11`, halo2curves/src/bn256/assembly.rs lines 981-984 and 992. -/
def low (s : State) : Limbs := ⟨s.reg .r8, s.reg .r9, s.reg .r10, s.reg .r11⟩

/-- `double`. Models halo2curves/src/bn256/assembly.rs lines 12-63; `s` is what registers and flags hold before. -/
def double (c : FieldConsts) (s : State) (a : Limbs) : Limbs := high (run (env c a a) doubleAsm s)

/-- `square`. Models halo2curves/src/bn256/assembly.rs lines 67-352. -/
def square (c : FieldConsts) (s : State) (a : Limbs) : Limbs := high (run (env c a a) squareAsm s)

/-- `montgomery_reduce`. Models halo2curves/src/bn256/assembly.rs lines 355-537. -/
def montgomeryReduce (c : FieldConsts) (s : State) (t : Limbs8) : Limbs :=
  high (run ⟨word8 t, fun _ => 0, word4 c.modulus, c.inv⟩ reduceAsm s)

/-- `mul`. Models halo2curves/src/bn256/assembly.rs lines 541-827. -/
def mul (c : FieldConsts) (s : State) (a b : Limbs) : Limbs := high (run (env c a b) mulAsm s)

/-- `sub`. Models halo2curves/src/bn256/assembly.rs lines 831-883. -/
def sub (c : FieldConsts) (s : State) (a b : Limbs) : Limbs := high (run (env c a b) subAsm s)

/-- `add`. Models halo2curves/src/bn256/assembly.rs lines 887-939. -/
def add (c : FieldConsts) (s : State) (a b : Limbs) : Limbs := high (run (env c a b) addAsm s)

/-- `neg`. Models halo2curves/src/bn256/assembly.rs lines 943-993. -/
def neg (c : FieldConsts) (s : State) (a : Limbs) : Limbs := low (run (env c a a) negAsm s)

/-- `to_repr` with the feature: `montgomery_reduce` of the limbs with zeros above, then bytes. Models
halo2curves/src/bn256/fq.rs lines 229-242 and fr.rs lines 227-239. -/
def toRepr (c : FieldConsts) (s : State) (a : Limbs) : List UInt8 :=
  let t := montgomeryReduce c s ⟨a.l0, a.l1, a.l2, a.l3, 0, 0, 0, 0⟩
  leBytes 8 t.l0 ++ leBytes 8 t.l1 ++ leBytes 8 t.l2 ++ leBytes 8 t.l3

end Verif.Asm
