import Verif.Model.Fr
import Verif.Model.Poseidon

/-!
`Grain` of the `poseidon` crate: the generator of the round constants and of the matrix. `none` is a panic, or that a loop has
not ended within its fuel.
-/

namespace Verif.Pos

/-- Models `append_bits`, poseidon/src/grain.rs lines 158-163: the lowest `n` bits, the highest first. -/
def bitsOf (n val : Nat) : List Bool := (List.range n).reverse.map fun i => decide (val / 2 ^ i % 2 ≠ 0)

/-- The first content of the register for `bn256::Fr`, whose `NUM_BITS` is 254. Models poseidon/src/grain.rs lines 17-38.
`T` and `field_size` are `u32`, `r_f` and `r_p` are cast to `u16`; more than the lowest 10 or 12 bits is cut off anyway. -/
def grainStart (T rf rp : Nat) : List Bool :=
  bitsOf 2 1 ++ bitsOf 4 0 ++ bitsOf 12 254 ++ bitsOf 12 T ++ bitsOf 10 (rf % 2 ^ 16) ++ bitsOf 10 (rp % 2 ^ 16) ++
    bitsOf 30 0b111111111111111111111111111111

/-- Models `Grain::new_bit`, poseidon/src/grain.rs lines 132-144. -/
def newBit (s : List Bool) : Option (Bool × List Bool) := do
  let first ← s[0]?
  let b ← [62, 51, 38, 23, 13].foldlM (fun acc pos => (s[pos]?).map fun x => acc ^^ x) first
  if s.length = 80 then some (b, s.drop 1 ++ [b]) else none

/-- Models the iterator, poseidon/src/grain.rs lines 150-155. Every round of the loop takes one unit of fuel. -/
def nextBit : Nat → List Bool → Option (Bool × List Bool)
  | 0, _ => none
  | fuel + 1, s => do
    let (b, s) ← newBit s
    if b then newBit s
    else do
      let (_, s) ← newBit s
      nextBit fuel s

/-- The first `n` bits from the iterator as a number, the highest bit first. Models poseidon/src/grain.rs lines 88-94 and
121-127; the bytes that the bits are put into are the number in little-endian order. -/
def takeBits (fuel : Nat) : Nat → Nat → List Bool → Option (Nat × List Bool)
  | 0, v, s => some (v, s)
  | n + 1, v, s => do
    let (b, s) ← nextBit fuel s
    takeBits fuel n (2 * v + b.toNat) s

/-- Models `next_field_element`, poseidon/src/grain.rs lines 75-101, for `bn256::Fr`: numbers not below the modulus are
rejected. Every attempt takes one unit of the fuel `tries`. -/
def fieldElement (fuel : Nat) : Nat → List Bool → Option (Fr × List Bool)
  | 0, _ => none
  | tries + 1, s => do
    let (v, s) ← takeBits fuel 254 0 s
    if v < P then some ((v : Fr), s) else fieldElement fuel tries s

/-- Models `next_field_element_without_rejection`, poseidon/src/grain.rs lines 105-130. -/
def fieldElementAny (fuel : Nat) (s : List Bool) : Option (Fr × List Bool) := do
  let (v, s) ← takeBits fuel 254 0 s
  some ((v : Fr), s)

/-- Calls a generator `n` times. The loops of poseidon/src/grain.rs lines 53-58 and 63-68. -/
def times (gen : List Bool → Option (Fr × List Bool)) : Nat → List Bool → Option (List Fr × List Bool)
  | 0, s => some ([], s)
  | n + 1, s => do
    let (x, s) ← gen s
    let (l, s) ← times gen n s
    some (x :: l, s)

/-- Lets a register run. Models poseidon/src/grain.rs lines 46-48. -/
def warmUp : Nat → List Bool → Option (List Bool)
  | 0, s => some s
  | n + 1, s => do
    let (_, s) ← newBit s
    warmUp n s

/-- A list as an array of given length; the lists it is used on have that length. -/
def toVec (n : Nat) (l : List Fr) : Vec Fr n := fun i => l.getD i.val 0

/-- Models `Grain::generate`, poseidon/src/grain.rs lines 14-70, for `bn256::Fr` and width `T`. The constants of all rounds
come one after the other. -/
def generate (fuel tries T rf rp : Nat) : Option (List (Vec Fr T) × Mat Fr T) := do
  if rf % 2 = 0 then do
    let s ← warmUp 160 (grainStart T rf rp)
    let (cs, s) ← times (fieldElement fuel tries) ((rp + rf) * T) s
    let (xs, s) ← times (fieldElementAny fuel) T s
    let (ys, _) ← times (fieldElementAny fuel) T s
    let m ← cauchy (toVec T xs) (toVec T ys)
    some ((List.range (rp + rf)).map (fun r => toVec T ((cs.drop (r * T)).take T)), m)
  else none

end Verif.Pos
