import Mathlib.Data.Nat.Basic
import Mathlib.Data.List.Basic

/-!
Independent specification of Brainfuck, written on the source text.
Nothing here refers to the compiler or the interpreter.
-/

namespace BF

/-- The eight commands. -/
inductive Cmd
  | left | right | inc | dec | get | put | open_ | close
  deriving DecidableEq, Repr

/-- The command written by a byte of source text; other bytes are comments. -/
def cmdOf (b : UInt8) : Option Cmd :=
  if b = 60 then some .left       -- '<'
  else if b = 62 then some .right -- '>'
  else if b = 43 then some .inc   -- '+'
  else if b = 45 then some .dec   -- '-'
  else if b = 44 then some .get   -- ','
  else if b = 46 then some .put   -- '.'
  else if b = 91 then some .open_ -- '['
  else if b = 93 then some .close -- ']'
  else none

/-- The commands of a source text, comments dropped. -/
def commands (src : List UInt8) : List Cmd := src.filterMap cmdOf

/-- Number of opening brackets. -/
def opens (p : List Cmd) : Nat := p.count .open_
/-- Number of closing brackets. -/
def closes (p : List Cmd) : Nat := p.count .close

/-- Brackets never close more than was opened. -/
def NoUnderflow (p : List Cmd) : Prop := ∀ n, closes (p.take n) ≤ opens (p.take n)

/-- Balanced brackets. -/
def Balanced (p : List Cmd) : Prop := NoUnderflow p ∧ opens p = closes p

/-- `j` is the position of the bracket closing the one at position `i`:
there is a `[` at `i`, a `]` at `j`, and the text between is balanced. -/
def Matches (p : List Cmd) (i j : Nat) : Prop :=
  i < j ∧ p[i]? = some .open_ ∧ p[j]? = some .close ∧ Balanced ((p.take j).drop (i + 1))

/-- State of the Brainfuck machine. The tape is unbounded to the right. -/
structure State where
  pc : Nat := 0
  ptr : Nat := 0
  tape : Nat → Nat := fun _ => 0
  input : List Nat
  output : List Nat := []

/-- Runtime errors. -/
inductive Err
  | leftOfStart
  | endOfInput
  deriving DecidableEq, Repr

/-- The cells are integers modulo `2^bits`. -/
def setCell (t : Nat → Nat) (i v : Nat) : Nat → Nat := fun j => if j = i then v else t j

/-- One step of the machine on command list `p` with `2^bits`-valued cells.
`Step p bits s r` : from state `s` (not halted) the machine goes to `r`, an error or a state. -/
inductive Step (p : List Cmd) (bits : Nat) (s : State) : Except Err State → Prop
  | left : p[s.pc]? = some .left → 0 < s.ptr →
      Step p bits s (.ok { s with pc := s.pc + 1, ptr := s.ptr - 1 })
  | leftErr : p[s.pc]? = some .left → s.ptr = 0 → Step p bits s (.error .leftOfStart)
  | right : p[s.pc]? = some .right →
      Step p bits s (.ok { s with pc := s.pc + 1, ptr := s.ptr + 1 })
  | inc : p[s.pc]? = some .inc →
      Step p bits s (.ok { s with pc := s.pc + 1,
                                  tape := setCell s.tape s.ptr ((s.tape s.ptr + 1) % 2 ^ bits) })
  | dec : p[s.pc]? = some .dec →
      Step p bits s (.ok { s with pc := s.pc + 1,
                                  tape := setCell s.tape s.ptr
                                    ((s.tape s.ptr + (2 ^ bits - 1)) % 2 ^ bits) })
  | get (c : Nat) (rest : List Nat) : p[s.pc]? = some .get → s.input = c :: rest →
      Step p bits s (.ok { s with pc := s.pc + 1, tape := setCell s.tape s.ptr c, input := rest })
  | getErr : p[s.pc]? = some .get → s.input = [] → Step p bits s (.error .endOfInput)
  | put : p[s.pc]? = some .put →
      Step p bits s (.ok { s with pc := s.pc + 1, output := s.output ++ [s.tape s.ptr] })
  | openSkip (j : Nat) : p[s.pc]? = some .open_ → s.tape s.ptr = 0 → Matches p s.pc j →
      Step p bits s (.ok { s with pc := j + 1 })
  | openEnter : p[s.pc]? = some .open_ → s.tape s.ptr ≠ 0 →
      Step p bits s (.ok { s with pc := s.pc + 1 })
  | closeBack (i : Nat) : p[s.pc]? = some .close → s.tape s.ptr ≠ 0 → Matches p i s.pc →
      Step p bits s (.ok { s with pc := i + 1 })
  | closeLeave : p[s.pc]? = some .close → s.tape s.ptr = 0 →
      Step p bits s (.ok { s with pc := s.pc + 1 })

/-- The machine has run past the last command. -/
def Halted (p : List Cmd) (s : State) : Prop := p.length ≤ s.pc

/-- `n` steps without error. -/
inductive Steps (p : List Cmd) (bits : Nat) : Nat → State → State → Prop
  | zero (s : State) : Steps p bits 0 s s
  | succ {n : Nat} {s t u : State} : Steps p bits n s t → Step p bits t (.ok u) →
      Steps p bits (n + 1) s u

/-- The initial state on a given input. -/
def init (input : List Nat) : State := { input := input }

/-- The program halts after `m` steps in state `t`. -/
def Finishes (p : List Cmd) (bits : Nat) (input : List Nat) (m : Nat) (t : State) : Prop :=
  Steps p bits m (init input) t ∧ Halted p t

/-- The program runs into a runtime error after `m` steps. -/
def Fails (p : List Cmd) (bits : Nat) (input : List Nat) (m : Nat) (e : Err) : Prop :=
  ∃ t, Steps p bits m (init input) t ∧ Step p bits t (.error e)

end BF
