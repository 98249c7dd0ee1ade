import Verif.Model.Sinsemilla
import Verif.Model.EccFixed

/-!
Sinsemilla commitments in circuits: `CommitDomain` in `halo2_gadgets/src/sinsemilla.rs`. File paths are relative to
`/repo/halo2_gadgets/src`.
-/

namespace Verif.Gadget

variable {p : Nat} [Fact p.Prime] {q : Nat}

/-- `CommitDomain`: the chip for multiples of fixed points, with its complete addition, the chip for hashes, the generators,
the point `Q` hashes start from and the tables of the point `R`. That all chips are equal to those of the arguments is
asserted in the code and taken for granted here. Models sinsemilla.rs lines 371-414. -/
structure CommitDomain (p : Nat) where
  mul : MulFull
  hash : Sinsemilla
  S : List (ZMod p × ZMod p)
  Q : AffinePoint (ZMod p)
  R : FixedBase p

namespace CommitDomain

/-- `commit`, in the regions from `start` on: two for the multiple of `R`, one for the hash, one for the sum. Models
sinsemilla.rs lines 416-437, and `NonIdentityPoint::add` in ecc.rs lines 305-319. -/
def commit (c : CommitDomain p) (start : Nat) (pieces : List (Piece p)) (r : MulFull.ScalarFixed p q) :
    Except Stop (List (Calls (ZMod p)) × EccPoint (ZMod p) × List (List (Assigned (ZMod p)))) := do
  let (regions, blind, _) ← c.mul.mul start r c.R
  let (calls, point, zs) ← c.hash.hashToPoint c.S (start + 2) c.Q pieces
  let sum := c.mul.sup.add.assign (start + 3) point blind 0
  return (regions ++ [calls, sum.1], sum.2, zs)

/-- `short_commit`, which is the first coordinate of the commitment. Models sinsemilla.rs lines 439-452 and `extract_p` in
ecc/chip.rs lines 504-507. -/
def shortCommit (c : CommitDomain p) (start : Nat) (pieces : List (Piece p)) (r : MulFull.ScalarFixed p q) :
    Except Stop (List (Calls (ZMod p)) × Assigned (ZMod p) × List (List (Assigned (ZMod p)))) := do
  let (regions, point, zs) ← c.commit start pieces r
  return (regions, point.x, zs)

end CommitDomain

end Verif.Gadget
