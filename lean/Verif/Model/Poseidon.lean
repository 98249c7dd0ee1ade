import Mathlib.Algebra.Field.Defs
import Mathlib.Data.List.FinRange
import Mathlib.Data.Fin.Basic

/-!
The `poseidon` crate: matrices, parameters of the optimised permutation, the permutation and the sponge. Over any field;
arrays of length `T = RATE + 1` are functions on `Fin (RATE + 1)`, so that lengths are right as they are by the types in
the code. A panic is `none`.
-/

namespace Verif.Pos

variable {F : Type}

/-- `[F; n]`, for example the state, poseidon/src/spec.rs line 11. -/
abbrev Vec (F : Type) (n : Nat) := Fin n → F

/-- Models `Matrix`, poseidon/src/matrix.rs line 10: a function of row and column. -/
abbrev Mat (F : Type) (n : Nat) := Fin n → Fin n → F

section Matrix

variable [Field F] {n t : Nat}

/-- Models `Matrix::identity`, poseidon/src/matrix.rs lines 24-30. -/
def identity : Mat F n := fun i j => if i = j then 1 else 0

/-- Models `Matrix::transpose`, poseidon/src/matrix.rs lines 53-61. -/
def transpose (m : Mat F n) : Mat F n := fun i j => m j i

/-- Models `Matrix::mul`, poseidon/src/matrix.rs lines 63-73. -/
def mul (a b : Mat F n) : Mat F n := fun i j =>
  (List.finRange n).foldl (fun acc k => acc + a i k * b k j) 0

/-- Models `Matrix::mul_vector`, poseidon/src/matrix.rs lines 75-83. -/
def mulVector (m : Mat F n) (v : Vec F n) : Vec F n := fun i =>
  (List.finRange n).foldl (fun cell k => cell + v k * m i k) 0

variable [DecidableEq F]

/-- The body of the loop over `j`: row `i`, times a factor that makes the entry in column `i` vanish, is subtracted from
row `j`. The two halves of the wide matrix are a pair. Models poseidon/src/matrix.rs lines 103-109; `unwrap` of the inverse
of 0 panics. -/
def clear (i : Fin n) (m : Mat F n × Mat F n) (j : Fin n) : Option (Mat F n × Mat F n) :=
  if i ≠ j then
    if m.1 i i = 0 then none
    else
      let r := m.1 j i * (m.1 i i)⁻¹
      some (fun a k => if a = j then m.1 j k - r * m.1 i k else m.1 a k,
        fun a k => if a = j then m.2 j k - r * m.2 i k else m.2 a k)
  else some m

/-- The two loops. Models poseidon/src/matrix.rs lines 101-111. -/
def clearAll (m : Mat F n × Mat F n) : Option (Mat F n × Mat F n) :=
  (List.finRange n).foldlM (fun m i => (List.finRange n).foldlM (clear i) m) m

/-- Models `Matrix::invert`, poseidon/src/matrix.rs lines 87-127. The last loop divides the right half of each row by the
entry on the diagonal of the left half, and panics if that is 0. -/
def invert (m : Mat F n) : Option (Mat F n) := do
  let m ← clearAll (m, identity)
  if ∀ i, m.1 i i ≠ 0 then some (fun i j => m.2 i j * (m.1 i i)⁻¹) else none

/-- Models `Matrix::w`, poseidon/src/matrix.rs lines 129-139: the first column without its first entry. -/
def firstColumn (m : Mat F (t + 1)) : Vec F t := fun i => m i.succ 0

/-- Models `Matrix::sub`, poseidon/src/matrix.rs lines 141-145: the matrix without first row and column. -/
def minor (m : Mat F (t + 1)) : Mat F t := fun i j => m i.succ j.succ

/-- Models `SparseMDSMatrix`, poseidon/src/spec.rs lines 240-244. -/
structure Sparse (F : Type) (t : Nat) where
  row : Vec F (t + 1)
  colHat : Vec F t

/-- Models the conversion of a matrix into a sparse one with its assertion, poseidon/src/spec.rs lines 276-299. -/
def toSparse (m : Mat F (t + 1)) : Option (Sparse F t) :=
  if ∀ i j : Fin t, m i.succ j.succ = if i ≠ j then 0 else 1 then some ⟨m 0, fun i => m i.succ 0⟩ else none

/-- Models the closure `prime` in `factorise`, poseidon/src/spec.rs lines 204-212. -/
def prime (hat : Mat F t) : Mat F (t + 1) :=
  Fin.cases (Fin.cases 1 fun _ => 0) fun i => Fin.cases 0 fun j => hat i j

/-- Models the closure `prime_prime` in `factorise`, poseidon/src/spec.rs lines 216-223. -/
def primePrime (m : Mat F (t + 1)) (wHat : Vec F t) : Mat F (t + 1) :=
  Fin.cases (m 0) fun i => Fin.cases (wHat i) fun j => if i = j then 1 else 0

/-- Models `factorise`, poseidon/src/spec.rs lines 201-230. -/
def factorise (m : Mat F (t + 1)) : Option (Mat F (t + 1) × Sparse F t) := do
  let inv ← invert (minor m)
  let s ← toSparse (transpose (primePrime m (mulVector inv (firstColumn m))))
  some (prime (minor m), s)

/-- The loop of `calculate_sparse_matrices`, poseidon/src/spec.rs lines 386-392. -/
def sparseLoop (mds : Mat F (t + 1)) : Nat → Mat F (t + 1) → Option (List (Sparse F t) × Mat F (t + 1))
  | 0, acc => some ([], acc)
  | k + 1, acc => do
    let (p, s) ← factorise acc
    let (l, acc) ← sparseLoop mds k (mul mds p)
    some (s :: l, acc)

/-- Models `calculate_sparse_matrices`, poseidon/src/spec.rs lines 380-396. -/
def sparseMatrices (rp : Nat) (mds : Mat F (t + 1)) : Option (List (Sparse F t) × Mat F (t + 1)) := do
  let (l, acc) ← sparseLoop (transpose mds) rp (transpose mds)
  some (l.reverse, transpose acc)

/-- Models `OptimizedConstants`, poseidon/src/spec.rs lines 95-100. -/
structure Constants (F : Type) (T : Nat) where
  start : List (Vec F T)
  part : List F
  fin : List (Vec F T)

/-- The loop over the constants of the partial rounds, from the last to the first. Models poseidon/src/spec.rs lines
345-361; the list of results is in the order of the loop. -/
def partialLoop (inv : Mat F (t + 1)) : List (Vec F (t + 1)) → Vec F (t + 1) → List F × Vec F (t + 1)
  | [], acc => ([], acc)
  | c :: cs, acc =>
    let tmp := mulVector inv acc
    let r := partialLoop inv cs fun i => (if i = 0 then 0 else tmp i) + c i
    (tmp 0 :: r.1, r.2)

/-- Models `calculate_optimized_constants`, poseidon/src/spec.rs lines 321-378. The loops are `zip`s of a list of zeros
with the constants; there are enough constants, as their number is asserted to be `r_f + r_p`, so the results are the
images of the constants. `constants_start[0]` panics without full rounds. -/
def optimizedConstants (rf rp : Nat) (constants : List (Vec F (t + 1))) (mds : Mat F (t + 1)) :
    Option (Constants F (t + 1)) := do
  let inv ← invert mds
  let half := rf / 2
  if constants.length = rf + rp ∧ 0 < half then do
    let first ← constants[0]?
    let start := first :: ((constants.drop 1).take (half - 1)).map (mulVector inv)
    let acc ← constants[half + rp]?
    let r := partialLoop inv (((constants.drop half).reverse.drop half).take rp) acc
    let fin := ((constants.drop (half + rp + 1)).take (half - 1)).map (mulVector inv)
    some ⟨start ++ [mulVector inv r.2], r.1.reverse, fin⟩
  else none

/-- Models `Spec` with its parts, poseidon/src/spec.rs lines 70-75 and 122-127. -/
structure Params (F : Type) (t : Nat) where
  rf : Nat
  mds : Mat F (t + 1)
  preSparse : Mat F (t + 1)
  sparse : List (Sparse F t)
  constants : Constants F (t + 1)

/-- Models `Spec::new`, poseidon/src/spec.rs lines 305-319, from the constants and the matrix that `Grain::generate`
makes; the assertion that `r_f` is even is in poseidon/src/grain.rs line 25. -/
def Params.new (rf rp : Nat) (constants : List (Vec F (t + 1))) (mds : Mat F (t + 1)) : Option (Params F t) := do
  if rf % 2 = 0 then do
    let c ← optimizedConstants rf rp constants mds
    let (sparse, preSparse) ← sparseMatrices rp mds
    some ⟨rf, mds, preSparse, sparse, c⟩
  else none

/-- Models `MDSMatrix::cauchy`, poseidon/src/spec.rs lines 165-175; `unwrap` of the inverse of 0 panics. -/
def cauchy (xs ys : Vec F n) : Option (Mat F n) :=
  if ∀ i j, xs i + ys j ≠ 0 then some fun i j => (xs i + ys j)⁻¹ else none

end Matrix

section Permutation

variable [Field F] {t : Nat}

/-- The fifth power as it is computed. Models poseidon/src/spec.rs lines 27-29 and 36-38. -/
def fifth (e : F) : F :=
  let tmp := e * e
  e * tmp * tmp

/-- Models `sbox_full`, poseidon/src/spec.rs lines 25-31. -/
def sboxFull (v : Vec F (t + 1)) : Vec F (t + 1) := fun i => fifth (v i)

/-- Models `sbox_part`, poseidon/src/spec.rs lines 35-39. -/
def sboxPart (v : Vec F (t + 1)) : Vec F (t + 1) := fun i => if i = 0 then fifth (v i) else v i

/-- Models `add_constants`, poseidon/src/spec.rs lines 42-46. -/
def addConstants (v c : Vec F (t + 1)) : Vec F (t + 1) := fun i => v i + c i

/-- Models `add_constant`, poseidon/src/spec.rs lines 51-53. -/
def addConstant (v : Vec F (t + 1)) (c : F) : Vec F (t + 1) := fun i => if i = 0 then v i + c else v i

/-- Models `SparseMDSMatrix::apply`, poseidon/src/spec.rs lines 258-273. -/
def Sparse.apply (s : Sparse F t) (v : Vec F (t + 1)) : Vec F (t + 1) :=
  Fin.cases ((List.finRange (t + 1)).foldl (fun acc k => acc + s.row k * v k) 0)
    fun i => s.colHat i * v 0 + v i.succ

/-- Models `Spec::permute`, poseidon/src/permutation.rs lines 6-46. Without constants for the start the first line
panics, without full rounds the subtraction. -/
def Params.permute (p : Params F t) (v : Vec F (t + 1)) : Option (Vec F (t + 1)) := do
  let half := p.rf / 2
  let first ← p.constants.start[0]?
  let last ← p.constants.start.getLast?
  if half = 0 then none
  else
    let v := addConstants v first
    let v := ((p.constants.start.drop 1).take (half - 1)).foldl
      (fun v c => mulVector p.mds (addConstants (sboxFull v) c)) v
    let v := mulVector p.preSparse (addConstants (sboxFull v) last)
    let v := (p.constants.part.zip p.sparse).foldl
      (fun v c => c.2.apply (addConstant (sboxPart v) c.1)) v
    let v := p.constants.fin.foldl (fun v c => mulVector p.mds (addConstants (sboxFull v) c)) v
    some (mulVector p.mds (sboxFull v))

end Permutation

section Sponge

variable [Field F] {t : Nat}

/-- Models `Poseidon`, poseidon/src/poseidon.rs lines 8-12, without the parameters, for rate `t + 1`: with rate 0
`chunks` panics. -/
structure Sponge (F : Type) (t : Nat) where
  state : Vec F (t + 2)
  absorbing : List F

/-- Models `State::default`, poseidon/src/spec.rs lines 13-20: `2^64` in the first place. -/
def defaultState : Vec F (t + 2) := fun i => if i = 0 then ((2 ^ 64 : Nat) : F) else 0

/-- Models `Poseidon::new`, poseidon/src/poseidon.rs lines 16-22. -/
def Sponge.init : Sponge F t := ⟨defaultState, []⟩

/-- Adds elements to the state from the second place on, as many as there are and as there is room for. Models
poseidon/src/poseidon.rs lines 37-39 and 63-65. -/
def addInputs (v : Vec F (t + 2)) (l : List F) : Vec F (t + 2) :=
  Fin.cases (v 0) fun i => match l[i.val]? with
    | some x => v i.succ + x
    | none => v i.succ

/-- The loop over chunks. The permutation is a parameter. Models poseidon/src/poseidon.rs lines 30-45: full chunks are
added and permuted, the rest is kept. -/
def absorb (perm : Vec F (t + 2) → Vec F (t + 2)) : Nat → Vec F (t + 2) → List F → List F → Sponge F t
  | 0, v, kept, _ => ⟨v, kept⟩
  | _ + 1, v, kept, [] => ⟨v, kept⟩
  | fuel + 1, v, _, x :: l =>
    if (x :: l).length < t + 1 then ⟨v, x :: l⟩
    else absorb perm fuel (perm (addInputs v ((x :: l).take (t + 1)))) [] ((x :: l).drop (t + 1))

/-- Models `Poseidon::update`, poseidon/src/poseidon.rs lines 26-46; `l.length` rounds are enough for the loop. -/
def Sponge.update (perm : Vec F (t + 2) → Vec F (t + 2)) (s : Sponge F t) (elements : List F) : Sponge F t :=
  let input := s.absorbing ++ elements
  absorb perm input.length s.state s.absorbing input

/-- Models `Poseidon::squeeze`, poseidon/src/poseidon.rs lines 49-73, and `State::result`, poseidon/src/spec.rs lines
61-63: the second place. The assertion is checked in debug builds only. -/
def Sponge.squeeze (perm : Vec F (t + 2) → Vec F (t + 2)) (s : Sponge F t) : F × Sponge F t :=
  let v := perm (addInputs s.state (s.absorbing ++ [1]))
  (v 1, ⟨v, []⟩)

end Sponge

end Verif.Pos
