import Verif.Model.PlonkVerifier
import Verif.Model.VerifyingKey
import Verif.Model.Permutation
import Verif.Model.Tables

/-!
Key generation: `halo2_proofs/src/plonk/keygen.rs` and
`halo2_proofs/src/plonk/permutation/keygen.rs`.
-/

namespace Verif.Keygen

open Plonk

/-- The loop `*v = cur; cur *= w` over `n` entries. Models permutation/keygen.rs lines 116-121;
`parallelize` cuts the vector into pieces and starts each with the right power, which is the same as
one piece. -/
def geometric (w : Fr) : Nat → Fr → List Fr
  | 0, _ => []
  | n + 1, cur => cur :: geometric w n (cur * w)

/-- `deltaomega`: entry `[i][j]` is `δ^i · ω^j`. Models permutation/keygen.rs lines 112-137 (and
174-199, the same code). -/
def deltaOmega (omega : Fr) (m n : Nat) : List (List Fr) :=
  (geometric deltaFr m 1).map fun d => (geometric omega n 1).map (· * d)

/-- The permutation polynomials, by their values in the rows. Models permutation/keygen.rs lines
139-154 (and 201-214). -/
def permutationValues (omega : Fr) (m n : Nat) (mapping : List (List (Nat × Nat))) :
    Except Panic (List (List Fr)) :=
  (List.range m).mapM fun i => (List.range n).mapM fun j => do
    let p ← at_ (← at_ mapping i) j
    at_ (← at_ (deltaOmega omega m n) p.1) p.2

/-- The fixed columns as they are committed to: those of the circuit, then those made of the
selectors. Models keygen.rs lines 237-243; `Assigned` values are field elements here, so there is
nothing for `batch_invert_assigned` to invert. -/
def fixedValues (cs : CS) (n : Nat) (a : Assembly) (cols : List (List Fr)) : List (List Fr) :=
  ((List.range cs.numFixed).map fun c => (List.range n).map fun r => a.fixed c r) ++ cols

/-- The selectors as they are handed to `compress_selectors`. Models keygen.rs lines 222, 238. -/
def activations (cs : CS) (n : Nat) (a : Assembly) : List (List Bool) :=
  (List.range cs.numSelectors).map fun i => (List.range n).map fun r => a.selector i r

/-- What `keygen_vk` does after synthesis. Models keygen.rs lines 237-260. Committing to a column
given by its values (`params.commit_lagrange`) is a parameter. Copy constraints are collected in `a`
and put into the permutation here; `fuel` bounds the loop in `copy`. -/
def assemble {C : Type} (commit : List Fr → Except Panic C) (fuel : Nat) (cs : CS) (n : Nat)
    (domain : Domain) (a : Assembly) : Except Panic (Except SynthErr (Key C)) := do
  match ← PermAssembly.copyAll fuel a.copies (PermAssembly.new n cs.permutation) with
  | .error e => return .error e
  | .ok p =>
    let (c, cols, _) ← cs.compressSelectors (activations cs n a)
    let sigma ← permutationValues domain.omega c.cs.permutation.length n p.mapping
    let sigma ← sigma.mapM commit
    let fixed ← (fixedValues cs n a cols).mapM commit
    return .ok { domain := domain, cs := c.cs, fixed := fixed, sigma := sigma }

/-- `keygen_vk` for the brainfuck circuit with the tables `mx`. Models keygen.rs lines 29-48 and
205-261. `ch` and `inst` are the challenges and public inputs during synthesis (unknown to
`keygen_vk`; the result does not depend on them). `fuel` bounds the loops of the domain, `fuel'` the
one in `copy`. -/
def keygenVk {C : Type} (commit : List Fr → Except Panic C) (checks : Bool) (fuel fuel' k : Nat)
    (mx : Matrix) (ch : Nat → Fr) (inst : Nat → List Fr) :
    Except Panic (Except SynthErr (Key C)) := do
  let domain ← Domain.new checks fuel mainCS.degree k
  match synthesize (2 ^ k) mx ch inst with
  | .error e => return .error e
  | .ok a => assemble commit fuel' mainCS (2 ^ k) domain a

/-- `keygen_pk`'s `l0`, `l_last`, `l_active_row`, by their values in the rows. Models keygen.rs lines
364-393: the vectors are of length `n`. -/
def basisValues (cs : CS) (n : Nat) : List Fr × List Fr × List Fr :=
  let l0 := (List.range n).map fun i => if i = 0 then (1 : Fr) else 0
  let blind := (List.range n).map fun i => if n - cs.blindingFactors ≤ i then (1 : Fr) else 0
  let last := (List.range n).map fun i => if i = n - cs.blindingFactors - 1 then (1 : Fr) else 0
  (l0, last, (last.zip blind).map fun p => 1 - (p.1 + p.2))

end Verif.Keygen
