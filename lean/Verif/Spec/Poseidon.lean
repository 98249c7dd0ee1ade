import Mathlib.Data.Matrix.Mul
import Mathlib.LinearAlgebra.Matrix.Determinant.Basic

/-! The Poseidon permutation and hash as in the paper (Grassi et al., eprint 2019/458), for any field. -/

namespace Verif.Spec.Poseidon

open Matrix

variable {F : Type} [Field F] {n t : Nat}

/-- A full round: add constants, raise every element to the fifth power, multiply with the matrix. -/
def fullRound (M : Matrix (Fin n) (Fin n) F) (v c : Fin n → F) : Fin n → F := M *ᵥ fun i => (v i + c i) ^ 5

/-- A partial round: only the first element is raised to the fifth power. -/
def partialRound (M : Matrix (Fin (t + 1)) (Fin (t + 1)) F) (v c : Fin (t + 1) → F) : Fin (t + 1) → F :=
  M *ᵥ fun i => if i = 0 then (v i + c i) ^ 5 else v i + c i

/-- The permutation: `half` full rounds, `rp` partial rounds, and full rounds with the constants that are left. -/
def permutation (M : Matrix (Fin (t + 1)) (Fin (t + 1)) F) (half rp : Nat) (cs : List (Fin (t + 1) → F))
    (v : Fin (t + 1) → F) : Fin (t + 1) → F :=
  (cs.drop (half + rp)).foldl (fullRound M)
    (((cs.drop half).take rp).foldl (partialRound M) ((cs.take half).foldl (fullRound M) v))

/-- The leading principal minor of size `k`: the determinant of the first `k` rows and columns. -/
def leadingMinor (M : Matrix (Fin n) (Fin n) F) (k : Nat) (h : k ≤ n) : F :=
  (M.submatrix (Fin.castLE h) (Fin.castLE h)).det

/-- All leading principal minors differ from 0. -/
def LeadingMinors (M : Matrix (Fin n) (Fin n) F) : Prop := ∀ k (h : k ≤ n), leadingMinor M k h ≠ 0

/-- The matrix without its first row and column. -/
def lower (M : Matrix (Fin (t + 1)) (Fin (t + 1)) F) : Matrix (Fin t) (Fin t) F :=
  M.submatrix Fin.succ Fin.succ

/-- The state after adding a block of at most `t + 1` elements behind the first place. -/
def addBlock (v : Fin (t + 2) → F) (b : List F) : Fin (t + 2) → F :=
  fun i => if i = 0 then v i else v i + b.getD (i.val - 1) 0

/-- The sponge: blocks are added one after the other, with the permutation after each. -/
def absorbBlocks (perm : (Fin (t + 2) → F) → Fin (t + 2) → F) (v : Fin (t + 2) → F) (bs : List (List F)) :
    Fin (t + 2) → F :=
  bs.foldl (fun v b => perm (addBlock v b)) v

/-- A list with 1 appended, then zeros up to a multiple of the rate. -/
def padded (rate : Nat) (l : List F) : List F :=
  l ++ 1 :: List.replicate (rate - 1 - l.length % rate) 0

/-- The full blocks of a list. -/
def blocks (rate : Nat) (l : List F) : List (List F) :=
  (List.range (l.length / rate)).map fun i => (l.drop (i * rate)).take rate

/-- What is left behind the full blocks. -/
def rest (rate : Nat) (l : List F) : List F := l.drop (l.length / rate * rate)

/-- Every square matrix of some of the rows and some of the columns is invertible. -/
def MDS (M : Matrix (Fin n) (Fin n) F) : Prop :=
  ∀ k (f g : Fin k → Fin n), Function.Injective f → Function.Injective g → (M.submatrix f g).det ≠ 0

end Verif.Spec.Poseidon
