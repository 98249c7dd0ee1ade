import Mathlib.Data.Nat.Basic

/-! The generator of parameters in the Poseidon paper (eprint 2019/458, supplementary material F). -/

namespace Verif.Spec.Grain

/-- A sequence of bits that obeys the feedback. -/
def Feedback (b : Nat → Bool) : Prop :=
  ∀ n, b (n + 80) = (b (n + 62) ^^ b (n + 51) ^^ b (n + 38) ^^ b (n + 23) ^^ b (n + 13) ^^ b n)

/-- 80 successive bits. -/
def window (b : Nat → Bool) (m : Nat) : List Bool := (List.range 80).map fun i => b (m + i)

/-- The next bit of the output when the sequence is read from `m` on: pairs are read until the first bit of one is set;
its second bit is the result. -/
inductive Next (b : Nat → Bool) : Nat → Bool → Nat → Prop
  | take {m} : b m = true → Next b m (b (m + 1)) (m + 2)
  | skip {m x m'} : b m = false → Next b (m + 2) x m' → Next b m x m'

/-- The next bits of the output. -/
inductive Bits (b : Nat → Bool) : Nat → List Bool → Nat → Prop
  | nil {m} : Bits b m [] m
  | cons {m x m' l m''} : Next b m x m' → Bits b m' l m'' → Bits b m (x :: l) m''

/-- Bits as a number, the highest first. -/
def number (l : List Bool) : Nat := l.foldl (fun v b => 2 * v + b.toNat) 0

/-- The first number below `p` when groups of `n` bits of the output are read. -/
inductive Below (b : Nat → Bool) (n p : Nat) : Nat → Nat → Nat → Prop
  | accept {m l m'} : Bits b m l m' → l.length = n → number l < p → Below b n p m (number l) m'
  | reject {m l m' v m''} : Bits b m l m' → l.length = n → p ≤ number l → Below b n p m' v m'' → Below b n p m v m''

/-- A number made of `n` bits of the output. -/
def Group (b : Nat → Bool) (n m v m' : Nat) : Prop := ∃ l, Bits b m l m' ∧ l.length = n ∧ v = number l

/-- Numbers read one after the other: `R m v m'` says that `v` is read from `m` to `m'`. -/
inductive Many (R : Nat → Nat → Nat → Prop) : Nat → List Nat → Nat → Prop
  | nil {m} : Many R m [] m
  | cons {m v m' l m''} : R m v m' → Many R m' l m'' → Many R m (v :: l) m''

/-- The number in `n` bits of a sequence from `m` on. -/
def field (b : Nat → Bool) (m n : Nat) : Nat := number ((List.range n).map fun i => b (m + i))

/-- The first 80 bits: a prime field (1 in 2 bits), the S-box `x^5` (0 in 4 bits), the size of the field (12 bits), the width
(12 bits), the numbers of full and of partial rounds (10 bits each), 30 ones. -/
structure Seeded (b : Nat → Bool) (size width full part : Nat) : Prop where
  kind : field b 0 2 = 1
  sbox : field b 2 4 = 0
  size : field b 6 12 = size % 4096
  width : field b 18 12 = width % 4096
  full : field b 30 10 = full % 1024
  part : field b 40 10 = part % 1024
  ones : field b 50 30 = 2 ^ 30 - 1

end Verif.Spec.Grain
