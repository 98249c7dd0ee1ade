import Verif.Model.Limbs
import Verif.Model.Prover

/-!
The verifier's parameters, the witnesses the prover writes, and the on-chain verifier
`ckb_bf_verifier/src/main.rs`.
-/

namespace Verif

/-- KZG parameters. Models the struct `ParamsKZG` of halo2_proofs/src/poly/kzg/commitment.rs lines
24-31. `k` is a `u32`, `n` a `u64`. -/
structure KzgParams where
  k : Nat
  n : Nat
  g : List G1Raw
  gLagrange : List G1Raw
  g2 : G2Raw
  sG2 : G2Raw
  deriving DecidableEq, Repr

/-- `SHRINK_K`. Models ckb_bf_base/src/lib.rs line 17. -/
def SHRINK_K : Nat := 1

/-- `shrink`. Models halo2_proofs/src/poly/kzg/commitment.rs lines 282-288. (`1 << k` is computed
as `usize`; the callers pass `SHRINK_K`.) -/
def KzgParams.shrink (p : KzgParams) (k : Nat) : Except Panic KzgParams :=
  if k ≤ p.k then .ok { p with g := p.g.take (2 ^ k), gLagrange := p.gLagrange.take (2 ^ k) }
  else .error .assert

/-- `write_custom` in raw format. Models halo2_proofs/src/poly/kzg/commitment.rs lines 155-170. -/
def KzgParams.write (p : KzgParams) : List UInt8 :=
  leBytes 4 p.k ++ p.g.flatMap writeG1 ++ p.gLagrange.flatMap writeG1 ++ writeG2 p.g2 ++
    writeG2 p.sG2

/-- `count` elements one after the other; the first error stops.
Models the `map … collect::<Result<Vec<_>, _>>()?` of ckb_bf_base/src/utils.rs lines 91-92,
halo2_proofs/src/plonk.rs lines 112-114 and halo2_proofs/src/plonk/permutation.rs lines 110-113. -/
def readMany {α : Type} (f : List UInt8 → Option (α × List UInt8)) :
    Nat → List UInt8 → Option (List α × List UInt8)
  | 0, r => some ([], r)
  | n + 1, r => do
    let (a, r) ← f r
    let (l, r) ← readMany f n r
    some (a :: l, r)

/-- `1 << k` as an `i32`, then `as u64`: with overflow checks a shift by 32 or more panics, without
them the amount is taken modulo 32; a shift by 31 gives the sign bit, which the cast to `u64`
extends. Models ckb_bf_base/src/utils.rs lines 86 and 99 (the literal `1` defaults to `i32`:
nothing else fixes its type). -/
def shiftOne (checks : Bool) (k : Nat) : Except Panic Nat :=
  if checks && decide (32 ≤ k) then .error .overflow
  else .ok (if k % 32 = 31 then 2 ^ 64 - 2 ^ 31 else 2 ^ (k % 32))

/-- The points of the parameters. Models ckb_bf_base/src/utils.rs lines 91-104. -/
def readParamsBody (f1 : List UInt8 → Option (G1Raw × List UInt8))
    (f2 : List UInt8 → Option (G2Raw × List UInt8)) (count k n : Nat) (r : List UInt8) :
    Option (KzgParams × List UInt8) := do
  let (g, r) ← readMany f1 count r
  let (gl, r) ← readMany f1 count r
  let (g2, r) ← f2 r
  let (sg2, r) ← f2 r
  some (⟨k, n, g, gl, g2, sg2⟩, r)

/-- `read_verifier_params`. Models ckb_bf_base/src/utils.rs lines 77-105. `none` is an `io` error;
the remaining bytes are left in the reader. -/
def readVerifierParams (checks : Bool) (r : List UInt8) :
    Except Panic (Option (KzgParams × List UInt8)) :=
  match readExact 4 r with
  | none => .ok none
  | some (kb, r) => do
    let k := leNat kb
    let n ← shiftOne checks k
    .ok (readParamsBody readG1 readG2 (2 ^ SHRINK_K) k n r)

/-- The bytes of the code witness. Models ckb_bf_prover/src/main.rs lines 116-117. -/
def codeBytes (words : List Nat) : List UInt8 := words.flatMap (leBytes 2)

/-- The witnesses of the transaction. Models ckb_bf_prover/src/ckb_tx.rs lines 12-16; the other
witnesses of the dummy transaction play no part. -/
def txWitnesses (params vk proof code input : List UInt8) : List (List UInt8) :=
  [params, vk, proof, code, input]

/-- `load_witness(&mut buf, 0, i, Source::Input)` with a buffer of `cap` bytes. A library call:
its contract is to give the witness if it exists and fits the buffer and an error otherwise.
Used in ckb_bf_verifier/src/main.rs lines 33, 44, 55, 67, 86. -/
def loadWitness (ws : List (List UInt8)) (i cap : Nat) : Option (List UInt8) :=
  match ws[i]? with
  | none => none
  | some b => if b.length ≤ cap then some b else none

/-- Array read, panics out of bounds. -/
def arrGet {α : Type} (a : List α) (i : Nat) : Except Panic α :=
  match a[i]? with
  | some x => .ok x
  | none => .error .index

/-- Array write, panics out of bounds. -/
def arrSet {α : Type} (a : List α) (i : Nat) (x : α) : Except Panic (List α) :=
  if i < a.length then .ok (a.set i x) else .error .index

/-- `a[0..n]`, panics when `n` is beyond the end. -/
def arrPrefix {α : Type} (a : List α) (n : Nat) : Except Panic (List α) :=
  if n ≤ a.length then .ok (a.take n) else .error .index

/-- The fixed-size buffer holding the loaded bytes, zero beyond them.
Models ckb_bf_verifier/src/main.rs lines 66 and 85. -/
def bufferOf (cap : Nat) (b : List UInt8) : List UInt8 := b ++ List.replicate (cap - b.length) 0

/-- A loop `for idx in idx..idx+n { arr[idx + 1] = get(idx) }`. The shape of the loops of
ckb_bf_verifier/src/main.rs lines 81-83 and 98-100. -/
def fillFrom (get : Nat → Except Panic Fr) : Nat → Nat → List Fr → Except Panic (List Fr)
  | 0, _, arr => .ok arr
  | n + 1, idx, arr => do
    let v ← get idx
    let arr ← arrSet arr (idx + 1) v
    fillFrom get n (idx + 1) arr

/-- A program word of the code buffer. Models ckb_bf_verifier/src/main.rs line 82. -/
def codeWord (buf : List UInt8) (idx : Nat) : Except Panic Fr := do
  let a ← arrGet buf (idx * 2)
  let b ← arrGet buf (idx * 2 + 1)
  .ok ((leNat [a, b] : Nat) : Fr)

/-- A byte of the input buffer. Models ckb_bf_verifier/src/main.rs line 99. -/
def inputByte (buf : List UInt8) (idx : Nat) : Except Panic Fr := do
  let a ← arrGet buf idx
  .ok ((a.toNat : Nat) : Fr)

/-- The code array. Models ckb_bf_verifier/src/main.rs lines 78-83. -/
def decodeCode (raw : List UInt8) : Except Panic (List Fr) := do
  let codeLen := raw.length / 2
  let code ← arrSet (List.replicate 1024 0) 0 ((codeLen : Nat) : Fr)
  fillFrom (codeWord (bufferOf 2048 raw)) codeLen 0 code

/-- The input array. Models ckb_bf_verifier/src/main.rs lines 96-100. -/
def decodeInput (raw : List UInt8) : Except Panic (List Fr) := do
  let input ← arrSet (List.replicate 1024 0) 0 ((raw.length : Nat) : Fr)
  fillFrom (inputByte (bufferOf 1024 raw)) raw.length 0 input

/-- `program_entry`: the exit code, or a panic. Models ckb_bf_verifier/src/main.rs lines 31-141.
`readVk` is `VerifyingKey::read` (`none` is an error) and `verify` is `verify_proof` (`false` is an
error); both may panic. The debug messages are left out. -/
def programEntry {VK : Type} (checks : Bool)
    (readVk : List UInt8 → Except Panic (Option VK))
    (verify : KzgParams → VK → List (List Fr) → List UInt8 → Except Panic Bool)
    (ws : List (List UInt8)) : Except Panic Int :=
  match loadWitness ws 0 1024 with
  | none => .ok (-1)
  | some params =>
  match loadWitness ws 1 4096 with
  | none => .ok (-1)
  | some vkBytes =>
  match loadWitness ws 2 8192 with
  | none => .ok (-1)
  | some proof =>
  match loadWitness ws 3 2048 with
  | none => .ok (-1)
  | some rawCode =>
  if rawCode.length % 2 = 0 then do
    let code ← decodeCode rawCode
    match loadWitness ws 4 1024 with
    | none => .ok (-1)
    | some rawInput =>
      let input ← decodeInput rawInput
      match (← readVerifierParams checks params) with
      | none => .ok (-1)
      | some (p, _) =>
        match (← readVk vkBytes) with
        | none => .ok (-1)
        | some vk =>
          let c ← arrPrefix code (rawCode.length / 2 + 1)
          let i ← arrPrefix input (rawInput.length + 1)
          match (← verify p vk [c, i] proof) with
          | false => .ok (-2)
          | true => .ok 0
  else .error .assert

end Verif
