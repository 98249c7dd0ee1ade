import Verif.Model.Tables
import Mathlib.Data.Nat.Log

/-!
The prover binary, `ckb_bf_prover/src/main.rs`.
-/

namespace Verif

/-- The public inputs: each list preceded by its length. Models ckb_bf_prover/src/main.rs lines
24-31 (`code` is the compiled program, `input` the raw input bytes as field elements). -/
def publicInputs (code input : List Fr) : Nat → List Fr
  | 0 => (code.length : Fr) :: code
  | 1 => (input.length : Fr) :: input
  | _ => []

/-- The logarithm of the number of rows. Models ckb_bf_prover/src/main.rs lines 150-154:
`max(len.next_power_of_two().trailing_zeros(), 9)`; the trailing zeros of the least power of two
`2^k ≥ len` are `k`, which is `Nat.clog 2 len`. -/
def chooseK (instructionRows : Nat) : Nat := max (Nat.clog 2 instructionRows) 9

end Verif
