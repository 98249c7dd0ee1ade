import Verif.Model.Circuit

/-! What a Brainfuck step should do to a row of the processor table. -/

namespace Verif.Spec

/-- The contents of a row of the processor table. -/
structure Row where
  clk : Fr
  ip : Fr
  ci : Fr
  ni : Fr
  mp : Fr
  mv : Fr

/-- The next instruction pointer: jumps go to the operand, other commands to the next word, `[` and
`]` that do not jump skip their operand. -/
def nextIp (op : UInt8) (r : Row) : Fr :=
  if op = 91 then (if r.mv = 0 then r.ni else r.ip + 2)        -- '['
  else if op = 93 then (if r.mv = 0 then r.ip + 2 else r.ni)   -- ']'
  else r.ip + 1

/-- The next memory pointer. -/
def nextMp (op : UInt8) (r : Row) : Fr :=
  if op = 60 then r.mp - 1        -- '<'
  else if op = 62 then r.mp + 1   -- '>'
  else r.mp

/-- `r'` is a correct successor of `r` for command `op`, as far as two neighbouring rows can tell:
for `<`, `>` and `,` the new cell value comes from elsewhere. -/
structure RowStep (op : UInt8) (r r' : Row) : Prop where
  clk : r'.clk = r.clk + 1
  ip : r'.ip = nextIp op r
  mp : r'.mp = nextMp op r
  add : op = 43 → r'.mv.val = (r.mv.val + 1) % 256      -- '+'
  sub : op = 45 → r'.mv.val = (r.mv.val + 255) % 256    -- '-'
  keep : op = 46 ∨ op = 91 ∨ op = 93 → r'.mv = r.mv     -- '.', '[', ']'

/-- Row `i` of the processor table of an assignment. -/
def row (g : Grid) (i : Nat) : Row where
  clk := g.advice mainConfig.p.clk i
  ip := g.advice mainConfig.p.ip i
  ci := g.advice mainConfig.p.ci i
  ni := g.advice mainConfig.p.ni i
  mp := g.advice mainConfig.p.mp i
  mv := g.advice mainConfig.p.mv i

end Verif.Spec
