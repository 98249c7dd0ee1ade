import Verif.Model.EccMul

/-!
The Sinsemilla hash in circuits: `halo2_gadgets/src/sinsemilla/`. File paths are relative to `/repo/halo2_gadgets/src`.
-/

namespace Verif.Gadget

variable {p : Nat} [Fact p.Prime]

/-- `MessagePiece`: a cell and the number of its words of 10 bits. Models sinsemilla/message.rs lines 38-43. -/
structure Piece (p : Nat) where
  value : Assigned (ZMod p)
  numWords : Nat

/-- `MessagePiece::new`; `NUM_BITS` is the number of bits of the modulus. Models sinsemilla/message.rs lines 46-52. -/
def Piece.new (value : Assigned (ZMod p)) (numWords : Nat) : Except Stop (Piece p) := do
  assert (numWords * 10 < p.size)
  return ⟨value, numWords⟩

/-- `Message::from`, with `MAX_WORDS` 253. Models sinsemilla/message.rs lines 14-23. -/
def message (pieces : List (Piece p)) : Except Stop (List (Piece p)) := do
  assert ((pieces.map Piece.numWords).sum < 253)
  return pieces

/-- `SinsemillaConfig`, without the table columns, the domains and the range check. Models sinsemilla/chip.rs lines 34-64. -/
structure Sinsemilla where
  qS1 : Selector
  qS2 : Nat
  qS4 : Selector
  fixedYQ : Nat
  da : DoubleAndAdd
  bits : Nat

namespace Sinsemilla

/-- `INV_TWO_POW_K`, given by its bytes. Models sinsemilla/primitives.rs lines 19-22. -/
def invTwoPowK : Nat := [1, 0, 192, 196, 160, 229, 70, 82, 221, 165, 74, 202, 85, 7, 62, 34, 0, 0, 0, 0, 0, 0, 0, 0, 0, 0, 0, 0, 0,
  0, 240, 63].foldr (fun b acc => b + 256 * acc) 0

/-- `q_s3`. Models sinsemilla/chip.rs lines 89-93. -/
def qS3 (c : Sinsemilla) : Expr (ZMod p) := .fixed c.qS2 0 * (.fixed c.qS2 0 - .const 1)

/-- The gates of `configure`. Models sinsemilla/chip.rs lines 188-262. -/
def chip (c : Sinsemilla) : Chip (ZMod p) :=
  let xA := Expr.advice c.da.xA 0
  let xANext := Expr.advice c.da.xA 1
  let lambda2 := Expr.advice c.da.lambda2 0
  let secant := lambda2.square - (xANext + c.da.xR 0 + xA)
  let lhs := .scaled lambda2 4 * (xA - xANext)
  let rhs := .scaled (c.da.yA2 0) 2 + (.const 2 - c.qS3) * c.da.yA2 1 + .scaled c.qS3 2 * .advice c.da.lambda1 1
  { gates := [(c.qS4, [.scaled (.fixed c.fixedYQ 0) 2 - c.da.yA2 0]), (c.qS1, [secant, lhs - rhs])] }

/-- The three expressions that are looked up together, in the columns of the indices and of both coordinates; `S` are the
generators. Models `GeneratorTableConfig::configure`, sinsemilla/chip/generator_table.rs lines 24-76. -/
def lookup (c : Sinsemilla) (S : List (ZMod p × ZMod p)) : Expr (ZMod p) × Expr (ZMod p) × Expr (ZMod p) :=
  let q := Expr.selector c.qS1
  let run := .fixed c.qS2 0 - c.qS3
  let word := .advice c.bits 0 - .scaled (run * .advice c.bits 1) 1024
  let xP := .advice c.da.xP 0
  let yP := .scaled (c.da.yA2 0) 2⁻¹ - .advice c.da.lambda1 0 * (.advice c.da.xA 0 - xP)
  let notQ := .const 1 - q
  let init := S.getD 0 (0, 0)
  (q * word, q * xP + .scaled notQ init.1, q * yP + .scaled notQ init.2)

/-- The rows of the table. Models `GeneratorTableConfig::load`, sinsemilla/chip/generator_table.rs lines 78-96. -/
def load (S : List (ZMod p × ZMod p)) : List (ZMod p × ZMod p × ZMod p) :=
  S.zipIdx.map fun (s, i) => ((i : ZMod p), s.1, s.2)

/-- The words of a known piece. Models sinsemilla/chip/hash_to_point.rs lines 242-256 and `lebs2ip_k`,
sinsemilla/primitives.rs lines 38-43. -/
def words (numWords : Nat) (x : ZMod p) : List Nat :=
  (chunksExact 10 ((toLeBits x).take (10 * numWords))).map fun bits =>
    bits.zipIdx.foldl (fun acc b => acc + if b.1 then 2 ^ b.2 else 0) 0

/-- The generators of known words. Models sinsemilla/chip/hash_to_point.rs lines 258-263. -/
def generators (S : List (ZMod p × ZMod p)) (ms : List Nat) : Except Stop (List (ZMod p × ZMod p)) :=
  ms.mapM fun m => match S[m]? with
    | some s => .ok s
    | none => .error .panic

/-- The rows of a piece, from the coordinates of the accumulator and the generators. The values are elements here and
fractions there. Models sinsemilla/chip/hash_to_point.rs lines 313-372. -/
def steps (c : Sinsemilla) : Nat → Option (ZMod p) → Option (ZMod p) → List (Option (ZMod p × ZMod p)) →
    Calls (ZMod p) × Option (ZMod p) × Option (ZMod p)
  | _, xA, yA, [] => ([], xA, yA)
  | row, xA, yA, g :: gs =>
    let xP := g.map Prod.fst
    let yP := g.map Prod.snd
    let l1 := do return ((← yA) - (← yP)) * ((← xA) - (← xP))⁻¹
    let xR := do return (← l1) ^ 2 - (← xA) - (← xP)
    let l2 := do return (← yA) * 2 * ((← xA) - (← xR))⁻¹ - (← l1)
    let xN := do return (← l2) ^ 2 - (← xA) - (← xR)
    let yN := do return (← l2) * ((← xA) - (← xN)) - (← yA)
    let (calls, x, y) := steps c (row + 1) xN yN gs
    ([.advice c.da.xP row xP, .advice c.da.lambda1 row l1, .advice c.da.lambda2 row l2, .advice c.da.xA (row + 1) xN] ++ calls, x, y)

/-- `hash_piece`, without the cell of `x_a`, which is that of the next row. The subtraction of one from the number of words
underflows for a piece without words. Models sinsemilla/chip/hash_to_point.rs lines 180-376. -/
def hashPiece (c : Sinsemilla) (S : List (ZMod p × ZMod p)) (region offset : Nat) (piece : Piece p)
    (xA yA : Option (ZMod p)) (final : Bool) :
    Except Stop (Calls (ZMod p) × Option (ZMod p) × Option (ZMod p) × List (Assigned (ZMod p))) := do
  let n := piece.numWords
  assert (0 < n)
  let known := piece.value.value.map (words n)
  let gens ← onKnown known (generators S)
  let ws ← transposeVec known n
  let (copied, z0) := copyAdvice region piece.value c.bits offset
  let cells := sumCells region c.bits offset (invTwoPowK : ZMod p) 0 z0
    (ws.dropLast.map fun w => w.map fun (m : Nat) => (m : ZMod p))
  let gens ← transposeVec gens n
  let (calls, x, y) := c.steps offset xA yA gens
  return ((List.range n).map (fun row => .enable c.qS1 (offset + row)) ++
    (List.range (n - 1)).map (fun row => .fixed c.qS2 (offset + row) (some 1)) ++
    [.fixed c.qS2 (offset + n - 1) (some (if final then 2 else 0))] ++ copied ++
    cells.map (fun a => .advice c.bits a.cell.offset a.value) ++ calls, x, y, z0 :: cells)

/-- The loop over the pieces. Models sinsemilla/chip/hash_to_point.rs lines 82-98. -/
def hashPieces (c : Sinsemilla) (S : List (ZMod p × ZMod p)) (region : Nat) : Nat → Option (ZMod p) → Option (ZMod p) →
    List (Piece p) → Except Stop (Calls (ZMod p) × Nat × Option (ZMod p) × Option (ZMod p) × List (List (Assigned (ZMod p))))
  | offset, xA, yA, [] => .ok ([], offset, xA, yA, [])
  | offset, xA, yA, piece :: rest => do
    let (calls, x, y, zs) ← c.hashPiece S region offset piece xA yA rest.isEmpty
    let (more, o, x', y', zss) ← hashPieces c S region (offset + piece.numWords) x y rest
    return (calls ++ more, o, x', y', zs :: zss)

/-- `hash_message` in region `region`, as called by `hash_to_point`. The check made in tests only is left out. Models
sinsemilla/chip/hash_to_point.rs lines 27-168 and sinsemilla/chip.rs lines 313-323. -/
def hashToPoint (c : Sinsemilla) (S : List (ZMod p × ZMod p)) (region : Nat) (Q : AffinePoint (ZMod p)) (pieces : List (Piece p)) :
    Except Stop (Calls (ZMod p) × EccPoint (ZMod p) × List (List (Assigned (ZMod p)))) := do
  match Q with
  | none => .error .panic
  | some (xQ, yQ) =>
    let (calls, o, x, y, zss) ← c.hashPieces S region 0 (some xQ) (some yQ) pieces
    if (do return (← x) == 0 || (← y) == 0) == some true then .error .error
    else
      return ([.enable c.qS4 0, .fixed c.fixedYQ 0 (some yQ), .constant c.da.xA 0 (some xQ)] ++ calls ++
        [.advice c.da.lambda1 o y, .advice c.da.lambda2 o (some 0), .advice c.da.xP o (some 0)],
        ⟨⟨⟨region, o, .advice c.da.xA⟩, x⟩, ⟨⟨region, o, .advice c.da.lambda1⟩, y⟩⟩, zss)

end Sinsemilla

end Verif.Gadget
