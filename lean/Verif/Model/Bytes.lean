import Verif.Model.Compile

/-!
Byte readers and writers: `halo2curves/src/io.rs` and the integer encodings of the standard
library it is used with.
-/

namespace Verif

/-- `read_exact` on a slice: the first `n` bytes and the rest, an error (`none`) when there are
fewer. Models halo2curves/src/io.rs lines 13-32. -/
def readExact (n : Nat) (r : List UInt8) : Option (List UInt8 × List UInt8) :=
  if n > r.length then none else some (r.take n, r.drop n)

/-- The number written in `l`, least significant byte first. Models `from_le_bytes` of the standard
library as used in ckb_bf_base/src/utils.rs line 85 and halo2curves/src/derive/field.rs line 363. -/
def leNat : List UInt8 → Nat
  | [] => 0
  | b :: l => b.toNat + 256 * leNat l

/-- The `n` low bytes of `v`, least significant byte first. Models `to_le_bytes` as used in
halo2_proofs/src/poly/kzg/commitment.rs line 160, halo2curves/src/derive/field.rs line 372 and
ckb_bf_prover/src/main.rs line 117. -/
def leBytes : Nat → Nat → List UInt8
  | 0, _ => []
  | n + 1, v => UInt8.ofNat v :: leBytes n (v / 256)

/-- `from_be_bytes`, as used in halo2_proofs/src/plonk.rs lines 104 and 110. -/
def beNat (l : List UInt8) : Nat := leNat l.reverse

/-- `to_be_bytes`, as used in halo2_proofs/src/plonk.rs lines 76-77. -/
def beBytes (n v : Nat) : List UInt8 := (leBytes n v).reverse

end Verif
