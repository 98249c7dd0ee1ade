import Verif.Model.Sinsemilla

/-!
Merkle paths with the Sinsemilla hash in circuits: `halo2_gadgets/src/sinsemilla/merkle.rs` and `merkle/chip.rs`. File paths
are relative to `/repo/halo2_gadgets/src`.
-/

namespace Verif.Gadget

variable {p : Nat} [Fact p.Prime]

/-- `MerkleConfig`, with the column for pieces and the range check of `SinsemillaConfig`. The five columns are those of
`SinsemillaConfig::advices`. Models sinsemilla/merkle/chip.rs lines 30-42 and sinsemilla/chip.rs lines 52-62. -/
structure Merkle where
  qDecompose : Selector
  swap : CondSwap
  sins : Sinsemilla
  lookup : RangeCheck
  witness : Nat

/-- `RangeConstrained::bitrange_of`. Models utilities.rs lines 97-107. -/
def bitrangeOf (value : Option (ZMod p)) (start stop : Nat) : Except Stop (Option (ZMod p) × Nat) := do
  let v ← onKnown value fun x => bitrangeSubset x start stop
  return (v, stop - start)

/-- The fold of `MessagePiece::from_subpieces`. Models sinsemilla.rs lines 247-258. -/
def subpieces : Option (ZMod p) → Nat → List (Option (ZMod p) × Nat) → Except Stop (Option (ZMod p) × Nat)
  | acc, bits, [] => .ok (acc, bits)
  | acc, bits, (v, n) :: rest => do
    assert (bits < 64)
    subpieces (do return (← acc) + ((2 ^ bits : Nat) : ZMod p) * (← v)) (bits + n) rest

namespace Merkle

/-- The polynomials of the gate. Models sinsemilla/merkle/chip.rs lines 117-185. -/
def polys (c : Merkle) : List (Expr (ZMod p)) :=
  let d := c.sins.da
  let a1 := Expr.advice d.xA 1
  let a0 := .advice d.xA 0 - .scaled a1 1024
  let z1b := Expr.advice d.xP 1
  let b1 := Expr.advice c.sins.bits 1
  let b2 := Expr.advice d.lambda1 1
  let b0 := .advice d.xP 0 - .scaled z1b 1024
  let left := a1 + .scaled (b0 + .scaled b1 1024) (((2 ^ 120 : Nat) : ZMod p) ^ 2) - .advice d.lambda1 0
  let right := b2 + .scaled (.advice c.sins.bits 0) 32 - .advice d.lambda2 0
  [a0 - .advice d.lambda2 1, left, right, z1b - (b1 + .scaled b2 32)]

/-- The gates and lookups of one expression. Models sinsemilla/merkle/chip.rs lines 89-193; the others are configured
before. -/
def chip (c : Merkle) : Chip (ZMod p) :=
  let lookup : Chip (ZMod p) := c.lookup.chip 10
  { gates := c.sins.chip.gates ++ lookup.gates ++ c.swap.chip.gates ++ [(c.qDecompose, c.polys)], lookups := lookup.lookups }

/-- `MessagePiece::from_subpieces` in region `region`, with `witness_message_piece`. Models sinsemilla.rs lines 242-265 and
sinsemilla/chip.rs lines 289-311. -/
def piece (c : Merkle) (region : Nat) (subs : List (Option (ZMod p) × Nat)) : Except Stop (Calls (ZMod p) × Piece p) := do
  let (v, bits) ← subpieces (some 0) 0 subs
  assert (bits % 10 == 0)
  let (calls, a) := assignAdvice region c.witness 0 v
  let piece ← Piece.new a (bits / 10)
  return (calls, piece)

/-- The region that checks the decomposition. Models sinsemilla/merkle/chip.rs lines 321-378. -/
def decompose (c : Merkle) (region l : Nat) (a b d left right z1a z1b b1 b2 : Assigned (ZMod p)) : Calls (ZMod p) :=
  let e := c.sins.da
  [.enable c.qDecompose 0, .constant e.lambda2 1 (some (l : ZMod p))] ++ (copyAdvice region a e.xA 0).1 ++
    (copyAdvice region b e.xP 0).1 ++ (copyAdvice region d c.sins.bits 0).1 ++ (copyAdvice region left e.lambda1 0).1 ++
    (copyAdvice region right e.lambda2 0).1 ++ (copyAdvice region z1a e.xA 1).1 ++ (copyAdvice region z1b e.xP 1).1 ++
    (copyAdvice region b1 c.sins.bits 1).1 ++ (copyAdvice region b2 e.lambda1 1).1

/-- `hash_layer` in regions `start` to `start + 6`. The check made in tests only is left out. Models
sinsemilla/merkle/chip.rs lines 210-417. -/
def hashLayer (c : Merkle) (S : List (ZMod p × ZMod p)) (start : Nat) (Q : AffinePoint (ZMod p)) (l : Nat)
    (left right : Assigned (ZMod p)) : Except Stop (List (Calls (ZMod p)) × Assigned (ZMod p)) := do
  let (ca, a) ← c.piece start [← bitrangeOf (some (l : ZMod p)) 0 10, ← bitrangeOf left.value 0 240]
  let b0 ← bitrangeOf left.value 240 250
  let (c1, b1) ← c.lookup.witnessBits 10 (start + 1) left.value 250 p.size
  let (c2, b2) ← c.lookup.witnessBits 10 (start + 2) right.value 0 5
  let (cb, b) ← c.piece (start + 3) [b0, (b1.value, p.size - 250), (b2.value, 5)]
  let (cd, d) ← c.piece (start + 4) [← bitrangeOf right.value 5 p.size]
  let (ch, out, zss) ← c.sins.hashToPoint S (start + 5) Q (← message [a, b, d])
  match zss with
  | (_ :: z1a :: _) :: (_ :: z1b :: _) :: _ =>
    return ([ca, c1, c2, cb, cd, ch, c.decompose (start + 6) l a.value b.value d.value left right z1a z1b b1 b2], out.x)
  | _ => .error .panic

/-- The loop of `calculate_root`: chips, siblings and bits of the position, from leaf to root; each layer takes eight
regions. Models sinsemilla/merkle.rs lines 141-170. -/
def layers (S : List (ZMod p × ZMod p)) (Q : AffinePoint (ZMod p)) : Nat → Nat → Assigned (ZMod p) →
    List (Merkle × Option (ZMod p) × Option Bool) → Except Stop (List (Calls (ZMod p)) × Assigned (ZMod p))
  | _, _, node, [] => .ok ([], node)
  | start, l, node, (c, sibling, bit) :: rest => do
    let (cs, left, right) := c.swap.run start (node, sibling) bit
    let (regions, out) ← c.hashLayer S (start + 1) Q l left right
    let (more, root) ← layers S Q (start + 8) (l + 1) out rest
    return (cs :: regions ++ more, root)

end Merkle

end Verif.Gadget
