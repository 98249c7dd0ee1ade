import Verif.Spec.BF

/-!
Independent specification of what a compiled program must look like.
-/

namespace BF

/-- The byte of a command. -/
def byteOf : Cmd → Nat
  | .left => 60
  | .right => 62
  | .inc => 43
  | .dec => 45
  | .get => 44
  | .put => 46
  | .open_ => 91
  | .close => 93

/-- Words a command occupies: brackets are followed by one operand word. -/
def width : Cmd → Nat
  | .open_ => 2
  | .close => 2
  | _ => 1

/-- Word position of the `i`-th command. -/
def pos (p : List Cmd) (i : Nat) : Nat := ((p.take i).map width).sum

/-- Remove the operand word following each bracket word. -/
def dropOperands : List Nat → List Nat
  | [] => []
  | w :: rest =>
    if w = 91 ∨ w = 93 then
      match rest with
      | [] => [w]
      | _ :: rest' => w :: dropOperands rest'
    else w :: dropOperands rest

/-- `ws` is a correct compilation of `p`: every command sits at its position, and the operand of
a bracket is the position just past its partner (partner and partner's operand). -/
structure CompiledTo (p : List Cmd) (ws : List Nat) : Prop where
  length : ws.length = pos p p.length
  opcode : ∀ i c, p[i]? = some c → ws[pos p i]? = some (byteOf c)
  openTarget : ∀ i j, Matches p i j → ws[pos p i + 1]? = some (pos p (j + 1))
  closeTarget : ∀ i j, Matches p i j → ws[pos p j + 1]? = some (pos p (i + 1))

end BF
