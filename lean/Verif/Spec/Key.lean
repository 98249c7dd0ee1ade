import Verif.Model.VerifyingKey
import Verif.Model.Tables

/-! Verifying keys as key generation makes them. -/

namespace Verif.Spec

/-- Coordinates below the modulus of the base field (always so for points made by the curve
arithmetic). -/
def Reduced (p : G1Raw) : Prop :=
  (p.x.Ok ∧ p.x.val < fqModulus.val) ∧ (p.y.Ok ∧ p.y.val < fqModulus.val)

/-- A key of the brainfuck circuit with the given table of enabled selectors: a domain for some `k`;
the constraint system and the selector assignments come from compressing the table; one commitment
for each fixed column and one for each column of the permutation. What is committed to is left open.
`keygen_vk`, halo2_proofs/src/plonk/keygen.rs lines 205-261. -/
structure GeneratedFrom (checks : Bool) (fuel : Nat) (activations : List (List Bool))
    (vk : VerifyingKey) : Prop where
  domain : ∃ k, k < 2 ^ 32 ∧ Domain.new checks fuel mainCS.degree k = .ok vk.domain ∧
    vk.domain.k = k
  selectors : ∃ (cols : List (List Fr)) (as : List SelectorAssignment),
    mainCS.compressSelectors activations = .ok (vk.cs, cols, as) ∧
    vk.selectorAssignments = as.map (WAssignment.ofAssignment vk.cs.cs)
  fixed : vk.fixedCommitments.length = vk.cs.cs.numFixed ∧ ∀ p ∈ vk.fixedCommitments, Reduced p
  permutation : vk.permutation.length = mainCS.permutation.length ∧
    ∀ p ∈ vk.permutation, Reduced p

/-- The table of enabled selectors of a synthesized circuit of `n` rows. -/
def selectorTable (n : Nat) (a : Assembly) : List (List Bool) :=
  (List.range mainCS.numSelectors).map fun i => (List.range n).map fun r => a.selector i r

end Verif.Spec
