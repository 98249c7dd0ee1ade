import Verif.Model.Gadget

/-!
What it means that the constraints a chip makes hold, for whatever a prover puts into the cells.
-/

namespace Verif.Spec.Gadget

open Verif.FloorPlanner (Call)
open Verif.Gadget

variable {F : Type}

/-- What is in the cells: the region, the column and the row of the region. -/
abbrev Content (F : Type) := Nat → Col → Int → F

/-- The content of a cell. -/
def Content.at (w : Content F) (c : Cell) : F := w c.region c.col c.offset

/-- The selector is enabled in the row by the calls of a region. -/
def enabled (calls : Calls F) (s : Selector) (row : Int) : Bool :=
  calls.any fun c => match c with
    | .enable t o => t == s && (o : Int) == row
    | _ => false

/-- What a call in a region makes sure of, whatever the prover does. That an advice cell was assigned a value
means nothing. -/
def Enforced (w : Content F) (region : Nat) : Call (Option F) → Prop
  | .constant col o v => v = some (w region (.advice col) o)
  | .fixed col o v => v = some (w region (.fixed col) o)
  | .equal a b => w.at a = w.at b
  | .equalConstant c v => v = some (w.at c)
  | _ => True

/-- The constraints hold in a region: copies, constants and fixed cells, the gates in all rows, and the
lookups in all rows, with the given table columns. -/
structure Sat [Ring F] (chip : Chip F) (table : Nat → List F) (w : Content F) (region : Nat) (calls : Calls F) :
    Prop where
  enforced : ∀ c ∈ calls, Enforced w region c
  gates : ∀ g ∈ chip.gates, ∀ e ∈ g.2, ∀ row : Int,
    (Verif.Gadget.Expr.selector g.1 * e).eval (enabled calls) (w region) row = 0
  lookups : ∀ l ∈ chip.lookups, ∀ row : Int, l.1.eval (enabled calls) (w region) row ∈ table l.2

/-- What an honest prover puts into the cells: the values the chip assigns. -/
def Follows (w : Content F) (region : Nat) (calls : Calls F) : Prop :=
  (∀ col o v, Call.advice col o v ∈ calls → v = some (w region (.advice col) o)) ∧
  (∀ col o v, Call.constant col o v ∈ calls → v = some (w region (.advice col) o)) ∧
  (∀ col o v, Call.fixed col o v ∈ calls → v = some (w region (.fixed col) o))

/-- The cell contains what it is said to have been assigned. -/
def Known (w : Content F) (a : Assigned F) : Prop := a.value = some (w.at a.cell)

/-- The column and row of a cell that the calls assign. -/
def assigns (calls : Calls F) (col : Col) (row : Int) : Prop :=
  (∃ c o v, Call.advice c o v ∈ calls ∧ col = .advice c ∧ row = o) ∨
  (∃ c o v, Call.constant c o v ∈ calls ∧ col = .advice c ∧ row = o) ∨
  (∃ c o v, Call.fixed c o v ∈ calls ∧ col = .fixed c ∧ row = o)

/-- Gates read, where they are enabled, only cells that the same region assigns. -/
def Covered (chip : Chip F) (calls : Calls F) : Prop :=
  ∀ g ∈ chip.gates, ∀ row : Int, enabled calls g.1 row = true →
    ∀ e ∈ g.2, ∀ q ∈ e.queries, assigns calls q.1 (row + q.2)

/-- Calls that differ in nothing but the values assigned to advice cells: what depends on keys is the same. -/
inductive SameCall : Call (Option F) → Call (Option F) → Prop
  | advice (col o : Nat) (v v' : Option F) : SameCall (.advice col o v) (.advice col o v')
  | refl (c : Call (Option F)) : SameCall c c

/-- The table of all numbers of `k` bits. -/
def IsTable {p : Nat} (k : Nat) (t : List (ZMod p)) : Prop := ∀ x, x ∈ t ↔ ∃ n : Nat, n < 2 ^ k ∧ x = n

end Verif.Spec.Gadget
