import Verif.Model.Fr

/-!
The compiler: `ckb_bf_vm/src/code.rs`.
-/

namespace Verif

/-- Opcode bytes. Models ckb_bf_vm/src/code.rs lines 7-14. -/
def SHL : UInt8 := 0x3C
/-- ckb_bf_vm/src/code.rs line 8. -/
def SHR : UInt8 := 0x3E
/-- ckb_bf_vm/src/code.rs line 9. -/
def ADD : UInt8 := 0x2B
/-- ckb_bf_vm/src/code.rs line 10. -/
def SUB : UInt8 := 0x2D
/-- ckb_bf_vm/src/code.rs line 11. -/
def GETCHAR : UInt8 := 0x2C
/-- ckb_bf_vm/src/code.rs line 12. -/
def PUTCHAR : UInt8 := 0x2E
/-- ckb_bf_vm/src/code.rs line 13. -/
def LB : UInt8 := 0x5B
/-- ckb_bf_vm/src/code.rs line 14. -/
def RB : UInt8 := 0x5D

/-- Reasons for which modelled Rust code panics. -/
inductive Panic
  /-- slice or vector index out of bounds -/
  | index
  /-- `unwrap` of `None` -/
  | unwrap
  /-- integer overflow with overflow checks on -/
  | overflow
  /-- `Vec::remove` on an empty vector -/
  | remove
  /-- `unreachable!()` -/
  | unreachable
  /-- failed `assert!` -/
  | assert
  /-- a loop that did not end within the number of iterations the model was given (not a panic;
  theorems that produce it hold for every such number) -/
  | hang
  deriving DecidableEq, Repr

/-- u16 subtraction of 1: with overflow checks on it panics at 0, otherwise it wraps. -/
def u16SubOne (checks : Bool) (x : Nat) : Except Panic Nat :=
  if x = 0 then (if checks then .error .overflow else .ok 65535) else .ok (x - 1)

/-- u16 addition of 1: with overflow checks on it panics at 65535, otherwise it wraps. -/
def u16AddOne (checks : Bool) (x : Nat) : Except Panic Nat :=
  if x = 65535 then (if checks then .error .overflow else .ok 0) else .ok (x + 1)

/-- State of the compilation loop: the emitted words and the stack of open
brackets (top first; the Rust vector has its top last).
Models ckb_bf_vm/src/code.rs lines 28-29. -/
structure CompileState where
  instrs : List Nat
  jstack : List Nat
  deriving Repr, DecidableEq

/-- The list of bytes the compiler keeps. Models ckb_bf_vm/src/code.rs line 27. -/
def opFilter : List UInt8 := [SHL, SHR, ADD, SUB, GETCHAR, PUTCHAR, LB, RB]

/-- One iteration of the compilation loop.
Models ckb_bf_vm/src/code.rs lines 30-44. `u16` values are naturals; every
cast to `u16` is an explicit `% 65536`. `checks` says whether the build has
integer overflow checks (debug profile) or not (release profile). -/
def compileStep (checks : Bool) (s : CompileState) (i : UInt8) : Except Panic CompileState :=
  if !opFilter.contains i then .ok s
  else
    let instrs := s.instrs ++ [i.toNat]
    if i = LB then do
      let instrs := instrs ++ [0]
      let top ← u16SubOne checks (instrs.length % 65536)
      .ok { instrs := instrs, jstack := top :: s.jstack }
    else if i = RB then
      match s.jstack with
      | [] => .error .unwrap
      | top :: rest => do
        let back ← u16AddOne checks top
        let instrs := instrs ++ [back]
        if top < instrs.length then
          .ok { instrs := instrs.set top (instrs.length % 65536), jstack := rest }
        else .error .index
    else .ok { s with instrs := instrs }

/-- The whole loop. Models ckb_bf_vm/src/code.rs lines 28-44. -/
def compileLoop (checks : Bool) : List UInt8 → CompileState → Except Panic CompileState
  | [], s => .ok s
  | i :: rest, s => do
    let s' ← compileStep checks s i
    compileLoop checks rest s'

/-- `compile_to_u16`. Models ckb_bf_vm/src/code.rs lines 26-46. -/
def compileToU16 (checks : Bool) (code : List UInt8) : Except Panic (List Nat) := do
  let s ← compileLoop checks code { instrs := [], jstack := [] }
  .ok s.instrs

/-- `compile`. Models ckb_bf_vm/src/code.rs lines 48-50. -/
def compile (checks : Bool) (code : List UInt8) : Except Panic (List Fr) := do
  let ws ← compileToU16 checks code
  .ok (ws.map fun (w : Nat) => (w : Fr))

/-- `easygen`. Models ckb_bf_vm/src/code.rs lines 16-18; a string is its list of bytes. -/
def easygen (code : List UInt8) : List Fr := code.map fun b => ((b.toNat : Nat) : Fr)

end Verif
