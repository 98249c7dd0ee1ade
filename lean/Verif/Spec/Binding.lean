import Verif.Model.Transcript

/-! What a challenge is to depend on: the list of everything that was sent before it. -/

namespace Verif.Spec

open Plonk

variable {G : Type}

/-- What happens in a conversation: a scalar or a point is sent, or a challenge is drawn. -/
inductive Item (G : Type)
  | scalar (x : Fr)
  | point (p : G)
  | draw

/-- The bytes that stand for it: a tag, then the scalar or the coordinates of the point. -/
def Item.bytes (codec : Codec G) : Item G → List UInt8
  | .scalar x => 2 :: leBytes 32 x.val
  | .point p => match codec.coords p with
    | some (x, y) => 1 :: (x ++ y)
    | none => []
  | .draw => [0]

/-- The bytes of a conversation. -/
def encode (codec : Codec G) (l : List (Item G)) : List UInt8 := l.flatMap (Item.bytes codec)

/-- The challenges of a conversation that goes on after the given bytes: each is the hash of all bytes up
to it, as a number, reduced. -/
def drawn (codec : Codec G) (hash : Hash) : List UInt8 → List (Item G) → List Fr
  | _, [] => []
  | a, .draw :: rest => ((leNat (hash (a ++ [0])) : Nat) : Fr) :: drawn codec hash (a ++ [0]) rest
  | a, i :: rest => drawn codec hash (a ++ i.bytes codec) rest

/-- Every point has coordinates, and no two have the same. -/
structure CoordsTell (codec : Codec G) : Prop where
  some : ∀ p, codec.coords p ≠ none
  inj : ∀ p q, codec.coords p = codec.coords q → p = q

/-- The columns of a phase, by their numbers. -/
def ofPhase (phases : List Nat) (p : Nat) : List Nat := (phases.zipIdx.filter fun q => q.1 = p).map (·.2)

/-- A phase: the commitments of its columns are sent, then its challenges are drawn. -/
def phaseItems [Zero G] (cs : CS) (advice : List G) (p : Nat) : List (Item G) :=
  ((ofPhase cs.advicePhase p).map fun i => .point (advice.getD i 0)) ++ (ofPhase cs.challengePhase p).map fun _ => .draw

/-- The challenges of the phases in the order in which they are drawn. -/
def inOrder (cs : CS) (user : List Fr) : List Fr :=
  cs.phases.flatMap fun p => (ofPhase cs.challengePhase p).map fun i => user.getD i 0

/-- The conversation up to the challenge x: the key, the public inputs, and all commitments. -/
def untilX [Zero G] (cs : CS) (repr : Fr) (instances : List (List Fr)) (com : Commitments G) : List (Item G) :=
  .scalar repr :: instances.flatten.map .scalar ++ cs.phases.flatMap (phaseItems cs com.advice) ++ [.draw] ++
    com.permuted.flatMap (fun p => [.point p.1, .point p.2]) ++ [.draw, .draw] ++ com.products.map .point ++
    com.lookupProducts.map .point ++ [.point com.random, .draw] ++ com.pieces.map .point ++ [.draw]

/-- The scalars of a proof. -/
def scalarList (e : Evals) : List Fr :=
  e.advice ++ (e.fixed ++ (e.random :: (e.sigma ++ (e.sets.flatMap (fun s => s.product :: s.next :: s.last.toList) ++
    e.lookups.flatMap (fun l => [l.product, l.next, l.input, l.inputInv, l.table])))))

/-- The conversation up to the last challenge. -/
def untilU [Zero G] (cs : CS) (repr : Fr) (instances : List (List Fr)) (com : Commitments G) (e : Evals) (h1 : G) :
    List (Item G) :=
  untilX cs repr instances com ++ (scalarList e).map .scalar ++ [.draw, .draw, .point h1, .draw]

end Verif.Spec
