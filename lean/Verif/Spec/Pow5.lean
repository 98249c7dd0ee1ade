import Verif.Spec.Poseidon
import Verif.Spec.Gadget

/-! The Poseidon hash with constant input length (eprint 2019/458, section 4.2), and constraints in many regions. -/

namespace Verif.Spec.Pow5

variable {F : Type} [Field F] {t : Nat}

/-- A block is added to the state, all but its last place; a short block is filled up with zeros. -/
def addRate (v : Fin (t + 1) → F) (b : List F) : Fin (t + 1) → F :=
  fun i => if i = Fin.last t then v i else v i + b.getD i 0

/-- The state before the first block: the length of the message times 2^64 in the last place. -/
def start (t l : Nat) : Fin (t + 1) → F := fun i => if i = Fin.last t then ((l * 2 ^ 64 : Nat) : F) else 0

/-- The blocks of a message; the last one may be shorter. -/
def blocks (t : Nat) (m : List F) : List (List F) :=
  (List.range ((m.length + t - 1) / t)).map fun i => (m.drop (i * t)).take t

/-- The hash: each block is added and the permutation applied; the result is the first word. -/
def hash (perm : (Fin (t + 1) → F) → Fin (t + 1) → F) (m : List F) : F :=
  (blocks t m).foldl (fun v b => perm (addRate v b)) (start t m.length) 0

open Verif.Gadget Verif.Spec.Gadget

/-- The constraints hold in all regions from `first` on. -/
def SatAll (chip : Chip F) (table : Nat → List F) (w : Content F) (first : Nat) (regions : List (Calls F)) : Prop :=
  ∀ i (h : i < regions.length), Sat chip table w (first + i) regions[i]

/-- An honest prover writes what the chip assigns in all regions. -/
def FollowsAll (w : Content F) (first : Nat) (regions : List (Calls F)) : Prop :=
  ∀ i (h : i < regions.length), Follows w (first + i) regions[i]

end Verif.Spec.Pow5
