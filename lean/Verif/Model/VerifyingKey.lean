import Verif.Model.Circuit
import Verif.Model.Compress
import Verif.Model.Domain
import Verif.Model.Verifier

/-!
Verifying keys as bytes: `halo2_proofs/src/plonk.rs`, `halo2_proofs/src/plonk/circuit.rs` lines
720-882, `halo2_proofs/src/plonk/circuit/compress_selectors.rs` lines 37-59. Raw format throughout
(the format the prover writes, ckb_bf_prover/src/main.rs line 81, and the verifier reads,
ckb_bf_verifier/src/main.rs line 114).
-/

namespace Verif

/-- Four limbs of a number below `2^256`. -/
def Limbs.ofNat (v : Nat) : Limbs :=
  ⟨v % W64, v / W64 % W64, v / W64 ^ 2 % W64, v / W64 ^ 3 % W64⟩

/-- The stored (Montgomery) form of a field element: the element times `2^256`. Models the
representation of `Fr`, halo2curves/src/bn256/fr.rs lines 18-24 and 40-47. -/
def Fr.toStored (x : Fr) : Limbs := Limbs.ofNat (x * ((2 ^ 256 : Nat) : Fr)).val

/-- The field element stored as the given limbs. Same lines as `Fr.toStored`. -/
def Fr.ofStored (l : Limbs) : Fr := ((l.val : Nat) : Fr) * ((2 ^ 256 : Nat) : Fr)⁻¹

/-- `write` of a scalar in raw format. Models halo2_proofs/src/helpers.rs lines 134-139. -/
def writeFr (x : Fr) : List UInt8 := writeRaw x.toStored

/-- `read` of a scalar in raw format. Models halo2_proofs/src/helpers.rs lines 115-127. -/
def readFr (r : List UInt8) : Option (Fr × List UInt8) :=
  (readRaw frModulus r).map fun p => (Fr.ofStored p.1, p.2)

/-- An expression with everything that is written for it: queries carry their index in the list of
queries and advice queries and challenges their phase. Models halo2_proofs/src/plonk/circuit.rs lines
697-718 with the query structs of lines 399-406, 426-435 and 460-467. -/
inductive WExpr
  | const (c : Fr)
  | selector (s : Selector)
  | fixed (index col : Nat) (rot : Int)
  | advice (index col : Nat) (rot : Int) (phase : Nat)
  | instance_ (index col : Nat) (rot : Int)
  | challenge (index phase : Nat)
  | neg (a : WExpr)
  | sum (a b : WExpr)
  | product (a b : WExpr)
  | scaled (a : WExpr) (f : Fr)
  deriving DecidableEq

namespace WExpr

/-- The expression without query indices and phases. -/
def erase : WExpr → Expr
  | const c => .const c
  | selector s => .selector s
  | fixed _ c r => .fixed c r
  | advice _ c r _ => .advice c r
  | instance_ _ c r => .instance_ c r
  | challenge i _ => .challenge i
  | neg a => .neg a.erase
  | sum a b => .sum a.erase b.erase
  | product a b => .product a.erase b.erase
  | scaled a f => .scaled a.erase f

/-- The expression as the constraint system `cs` makes it: `query_fixed_index` and the like give the
index, the columns their phase. Models halo2_proofs/src/plonk/circuit.rs lines 1751-1796 and
2395-2424. -/
def ofExpr (cs : CS) : Expr → WExpr
  | .const c => const c
  | .selector s => selector s
  | .fixed c r => fixed (cs.fixedQueries.idxOf (c, r)) c r
  | .advice c r => advice (cs.adviceQueries.idxOf (c, r)) c r (cs.advicePhase.getD c 0)
  | .instance_ c r => instance_ (cs.instanceQueries.idxOf (c, r)) c r
  | .challenge i => challenge i (cs.challengePhase.getD i 0)
  | .neg a => neg (ofExpr cs a)
  | .sum a b => sum (ofExpr cs a) (ofExpr cs b)
  | .product a b => product (ofExpr cs a) (ofExpr cs b)
  | .scaled a f => scaled (ofExpr cs a) f

end WExpr

/-- `x as u32`, most significant byte first. Models the `to_be_bytes` calls of
halo2_proofs/src/plonk/circuit.rs lines 731-757. -/
def be32 (x : Nat) : List UInt8 := beBytes 4 x

/-- `i32::to_be_bytes`. Models halo2_proofs/src/plonk/circuit.rs lines 738, 744, 751. -/
def beI32 (r : Int) : List UInt8 := beBytes 4 (r % 2 ^ 32).toNat

/-- `u32::from_be_bytes` of the next four bytes. -/
def readU32 (r : List UInt8) : Option (Nat × List UInt8) :=
  (readExact 4 r).map fun p => (beNat p.1, p.2)

/-- `i32::from_be_bytes` of the next four bytes: two's complement. -/
def readI32 (r : List UInt8) : Option (Int × List UInt8) :=
  (readU32 r).map fun p => (if p.1 < 2 ^ 31 then (p.1 : Int) else (p.1 : Int) - 2 ^ 32, p.2)

/-- One byte. -/
def readU8 (r : List UInt8) : Option (Nat × List UInt8) :=
  (readExact 1 r).map fun p => (leNat p.1, p.2)

/-- `Expression::write`. Models halo2_proofs/src/plonk/circuit.rs lines 721-778. -/
def WExpr.write : WExpr → List UInt8
  | const c => 0 :: writeFr c
  | selector s => 1 :: (be32 s.index ++ [if s.simple then 1 else 0])
  | fixed i c r => 2 :: (be32 i ++ be32 c ++ beI32 r)
  | advice i c r p => 3 :: (be32 i ++ be32 c ++ beI32 r ++ leBytes 1 p)
  | instance_ i c r => 4 :: (be32 i ++ be32 c ++ beI32 r)
  | challenge i p => 5 :: (be32 i ++ leBytes 1 p)
  | neg a => 6 :: a.write
  | sum a b => 7 :: (a.write ++ b.write)
  | product a b => 8 :: (a.write ++ b.write)
  | scaled a f => 9 :: (a.write ++ writeFr f)

/-- `Expression::read`. Models halo2_proofs/src/plonk/circuit.rs lines 780-881. `none` is an error; a
constant that cannot be read panics in the code (line 785), which is not told apart, since the only
caller unwraps every error (compress_selectors.rs line 52). The first argument bounds the depth of
the recursion; every call takes a byte, so the number of bytes suffices. -/
def WExpr.read : Nat → List UInt8 → Option (WExpr × List UInt8)
  | 0, _ => none
  | fuel + 1, r => do
    let (typ, r) ← readU8 r
    match typ with
    | 0 => do
      let (c, r) ← readFr r
      some (const c, r)
    | 1 => do
      let (i, r) ← readU32 r
      let (a, r) ← readU8 r
      some (selector ⟨i, a != 0⟩, r)
    | 2 => do
      let (i, r) ← readU32 r
      let (c, r) ← readU32 r
      let (rot, r) ← readI32 r
      some (fixed i c rot, r)
    | 3 => do
      let (i, r) ← readU32 r
      let (c, r) ← readU32 r
      let (rot, r) ← readI32 r
      let (p, r) ← readU8 r
      some (advice i c rot p, r)
    | 4 => do
      let (i, r) ← readU32 r
      let (c, r) ← readU32 r
      let (rot, r) ← readI32 r
      some (instance_ i c rot, r)
    | 5 => do
      let (i, r) ← readU32 r
      let (p, r) ← readU8 r
      some (challenge i p, r)
    | 6 => do
      let (a, r) ← WExpr.read fuel r
      some (neg a, r)
    | 7 => do
      let (a, r) ← WExpr.read fuel r
      let (b, r) ← WExpr.read fuel r
      some (sum a b, r)
    | 8 => do
      let (a, r) ← WExpr.read fuel r
      let (b, r) ← WExpr.read fuel r
      some (product a b, r)
    | 9 => do
      let (a, r) ← WExpr.read fuel r
      let (f, r) ← readFr r
      some (scaled a f, r)
    | _ => none

/-- A selector assignment as it is written. Models
halo2_proofs/src/plonk/circuit/compress_selectors.rs lines 23-35. -/
structure WAssignment where
  selector : Nat
  combinationIndex : Nat
  expression : WExpr
  deriving DecidableEq

namespace WAssignment

/-- The assignment without query indices and phases. -/
def erase (a : WAssignment) : SelectorAssignment :=
  ⟨a.selector, a.combinationIndex, a.expression.erase⟩

/-- The assignment as key generation makes it: the query indices are those at the end, as queries
are only ever appended. -/
def ofAssignment (cs : CS) (a : SelectorAssignment) : WAssignment :=
  ⟨a.selector, a.combinationIndex, WExpr.ofExpr cs a.expression⟩

/-- `SelectorAssignment::write`. Models compress_selectors.rs lines 38-43. -/
def write (a : WAssignment) : List UInt8 :=
  be32 a.selector ++ be32 a.combinationIndex ++ a.expression.write

/-- `SelectorAssignment::read`. Models compress_selectors.rs lines 45-58. -/
def read (r : List UInt8) : Option (WAssignment × List UInt8) := do
  let (s, r) ← readU32 r
  let (c, r) ← readU32 r
  let (e, r) ← WExpr.read (r.length + 1) r
  some (⟨s, c, e⟩, r)

end WAssignment

/-- `VerifyingKey`. Models halo2_proofs/src/plonk.rs lines 50-61. Left out: `cs_degree` (a function
of `cs`) and `transcript_repr` (a hash of all the rest). -/
structure VerifyingKey where
  domain : Domain
  fixedCommitments : List G1Raw
  permutation : List G1Raw
  cs : CS.Compressed
  selectorAssignments : List WAssignment
  deriving DecidableEq

/-- `VerifyingKey::write`. Models halo2_proofs/src/plonk.rs lines 76-89 and
halo2_proofs/src/plonk/permutation.rs lines 93-101. -/
def VerifyingKey.write (vk : VerifyingKey) : List UInt8 :=
  be32 vk.domain.k ++ be32 vk.fixedCommitments.length ++ vk.fixedCommitments.flatMap writeG1 ++
    vk.permutation.flatMap writeG1 ++
    be32 vk.selectorAssignments.length ++ vk.selectorAssignments.flatMap WAssignment.write

/-- An `io` error is returned, a panic goes on. -/
def ioBind {α β : Type} (x : Option α) (f : α → Except Panic (Option β)) : Except Panic (Option β) :=
  match x with
  | none => .ok none
  | some a => f a

/-- `VerifyingKey::read` for a circuit with constraint system `cs`. Models halo2_proofs/src/plonk.rs
lines 102-134 and `create_domain`, halo2_proofs/src/plonk/keygen.rs lines 29-48. `checks` and `fuel`
as in `Domain.new`. An assignment that cannot be read panics (line 124). The list of assignments is
allocated in advance in the code; running out of memory is not modelled. -/
def VerifyingKey.read (checks : Bool) (fuel : Nat) (cs : CS) (r : List UInt8) :
    Except Panic (Option (VerifyingKey × List UInt8)) :=
  ioBind (readU32 r) fun (k, r) => do
    let domain ← Domain.new checks fuel cs.degree k
    ioBind (readU32 r) fun (numFixed, r) =>
      ioBind (readMany readG1 numFixed r) fun (fixed, r) =>
        ioBind (readMany readG1 cs.permutation.length r) fun (permutation, r) =>
          ioBind (readU32 r) fun (length, r) =>
            match readMany WAssignment.read length r with
            | none => .error .unwrap
            | some (as, r) => do
              let c ← cs.recreate (as.map WAssignment.erase)
              .ok (some (⟨domain, fixed, permutation, c, as⟩, r))

end Verif
