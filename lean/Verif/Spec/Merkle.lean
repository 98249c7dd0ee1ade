import Verif.Spec.Sinsemilla
import Verif.Model.Merkle

/-!
The hash of a layer of a Merkle tree (Zcash protocol specification, section 5.4.1.3, without the requirement that encodings be
canonical) and paths to a root.
-/

namespace Verif.Spec.Merkle

open Verif.Spec Verif.Spec.Ecc Verif.Spec.Sinsemilla

variable {p : Nat} [Fact p.Prime] {b : ZMod p}

/-- The words of the 10 bits of `l`, the 255 bits of `L` and the 255 bits of `R`, in this order. -/
def LayerWords (l L R : Nat) (ms : List Nat) : Prop :=
  ms.length = 52 ∧ (∀ m ∈ ms, m < 1024) ∧ Nat.ofDigits 1024 ms = l + 2 ^ 10 * L + 2 ^ 265 * R

/-- `h` is a hash of `x` and `y` in layer `l`: of numbers of 255 bits that stand for them. If there is no hash of their
words, nothing is said. -/
def LayerHash (G : Nat → Pt b) (Q : Pt b) (l : Nat) (x y h : ZMod p) : Prop :=
  l < 2 ^ 10 ∧ ∃ (L R : Nat) (ms : List Nat), L < 2 ^ 255 ∧ R < 2 ^ 255 ∧ (L : ZMod p) = x ∧ (R : ZMod p) = y ∧ LayerWords l L R ms ∧
    ∀ P, hashOf G Q ms = some P → h = (coords P).1

/-- `root` is the root over `node` in layer `l`, by a path with `n` siblings. -/
inductive Path (G : Nat → Pt b) (Q : Pt b) : Nat → Nat → ZMod p → ZMod p → Prop
  | here (l : Nat) (node : ZMod p) : Path G Q l 0 node node
  | left {l n : Nat} {node sibling h root : ZMod p} : LayerHash G Q l node sibling h → Path G Q (l + 1) n h root →
      Path G Q l (n + 1) node root
  | right {l n : Nat} {node sibling h root : ZMod p} : LayerHash G Q l sibling node h → Path G Q (l + 1) n h root →
      Path G Q l (n + 1) node root

/-- The selectors of the gates, and that of the lookup, differ. -/
def MerkleDistinct (c : Verif.Gadget.Merkle) : Prop :=
  [c.sins.qS1, c.sins.qS4, c.lookup.qLookup, c.lookup.qBitshift, c.swap.qSwap, c.qDecompose].Nodup

end Verif.Spec.Merkle
