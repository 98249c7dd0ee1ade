import Mathlib.Logic.Equiv.Basic
import Verif.Lemmas.PiopClaims
import Verif.Lemmas.KeyShape
import Verif.Spec.Messages

/-! The verifier's equations depend on the public inputs through the folded columns only. -/

namespace Verif.Plonk

open Finset Polynomial Spec

variable {d : Domain} {j k : Nat}

/-- Two public inputs in places that are folded onto one can be exchanged. -/
theorem foldedColumn_swap {n : Nat} {col col' : List Fr} {i i' : Nat} (hl : col.length = col'.length) (hi : i < col.length)
    (hi' : i' < col.length) (hn : i % n = i' % n) (h : ∀ m, col'.getD m 0 = col.getD (Equiv.swap i i' m) 0) (r : Nat) :
    foldedColumn n col r = foldedColumn n col' r := by
  unfold foldedColumn
  rw [← hl]
  have hm : ∀ m, Equiv.swap i i' m % n = m % n := by
    intro m
    rw [Equiv.swap_apply_def]
    split
    · next e => rw [e, hn]
    · split
      · next e => rw [e, hn]
      · rfl
  refine sum_equiv (Equiv.swap i i') (fun m => ?_) (fun m _ => ?_)
  · rw [mem_range, mem_range, Equiv.swap_apply_def]
    split
    · next e => rw [e]; exact ⟨fun _ => hi', fun _ => hi⟩
    · split
      · next e => rw [e]; exact ⟨fun _ => hi, fun _ => hi'⟩
      · rfl
  · rw [hm, h, Equiv.swap_apply_self]

/-- One entry of `lIRange`. -/
noncomputable def entryAt (d : Domain) (x xn : Fr) (s : Int) : Fr :=
  (x - 1 * d.omega ^ s)⁻¹ * ((xn - 1) * d.barycentricWeight) * d.omega ^ s

theorem lIRange_map (hd : IsDomain d j k) (x xn : Fr) (rs : List Int) : d.lIRange x xn rs = rs.map (entryAt d x xn) := by
  unfold Domain.lIRange entryAt
  simp only [hd.rotateOmega_eq]
  induction rs with
  | nil => rfl
  | cons r rs ih =>
    simp only [List.map_cons, List.zip_cons_cons] at ih ⊢
    rw [ih]

theorem entryAt_mod (hd : IsDomain d j k) (x xn : Fr) (i : Nat) (s : Int) :
    entryAt d x xn ((i : Int) - s) = entryAt d x xn (((i % 2 ^ k : Nat) : Int) - s) := by
  have : d.omega ^ ((i : Int) - s) = d.omega ^ (((i % 2 ^ k : Nat) : Int) - s) := by
    rw [hd.zpow_mod, hd.zpow_mod (((i % 2 ^ k : Nat) : Int) - s)]
    have : ((i : Int) - s) % ((2 ^ k : Nat) : Int) = (((i % 2 ^ k : Nat) : Int) - s) % ((2 ^ k : Nat) : Int) := by
      rw [Int.natCast_mod, Int.emod_sub_emod]
    rw [this]
  unfold entryAt
  rw [this]

/-- A sum over the public inputs is one over the folded column. -/
theorem sum_folded (hd : IsDomain d j k) (x xn : Fr) (col : List Fr) (s : Int) :
    ∑ i ∈ range col.length, col.getD i 0 * entryAt d x xn ((i : Int) - s) =
      ∑ r ∈ range (2 ^ k), foldedColumn (2 ^ k) col r * entryAt d x xn ((r : Int) - s) := by
  have h1 : ∀ r ∈ range (2 ^ k), foldedColumn (2 ^ k) col r * entryAt d x xn ((r : Int) - s) =
      ∑ i ∈ range col.length, if i % 2 ^ k = r then col.getD i 0 * entryAt d x xn ((r : Int) - s) else 0 := by
    intro r _
    unfold foldedColumn
    rw [sum_mul]
    refine sum_congr rfl fun i _ => ?_
    rw [ite_mul, zero_mul]
  rw [sum_congr rfl h1, sum_comm]
  refine sum_congr rfl fun i _ => ?_
  rw [sum_ite_eq, if_pos (mem_range.2 (Nat.mod_lt _ (by positivity))), entryAt_mod hd]

theorem instanceEvals_folded (hd : IsDomain d j k) (cs : CS) (x xn : Fr) (instances : List (List Fr))
    (hq : ∀ q ∈ cs.instanceQueries, q.1 < instances.length) :
    instanceEvals d cs x xn instances = .ok (cs.instanceQueries.map fun q =>
      ∑ r ∈ range (2 ^ k), foldedColumn (2 ^ k) (instances.getD q.1 []) r * entryAt d x xn ((r : Int) - q.2)) := by
  rw [instanceEvals_ok (L := fun s => C (entryAt d x xn s)) d cs x xn
    (fun rs => by rw [lIRange_map hd]; simp only [eval_C]) hq]
  congr 1
  refine List.map_congr_left fun q _ => ?_
  rw [eval_finsetSum, ← sum_folded hd]
  refine sum_congr rfl fun i _ => ?_
  rw [Polynomial.eval_mul, eval_C, eval_C]

theorem claims_folded {C : Type} {key : Key C} (hd : IsDomain key.domain j k) {n : Nat} {instances instances' : List (List Fr)}
    (hc : ∀ q ∈ key.cs.instanceQueries, q.1 < instances.length ∧ q.1 < instances'.length)
    (h : ∀ c, ∀ r < 2 ^ k, foldedColumn (2 ^ k) (instances.getD c []) r = foldedColumn (2 ^ k) (instances'.getD c []) r)
    (com : Commitments C) (ch : Challenges) (e : Evals) : claims key n instances com ch e = claims key n instances' com ch e := by
  have : instanceEvals key.domain key.cs ch.x (ch.x ^ n) instances = instanceEvals key.domain key.cs ch.x (ch.x ^ n) instances' := by
    rw [instanceEvals_folded hd _ _ _ _ fun q hq => (hc q hq).1, instanceEvals_folded hd _ _ _ _ fun q hq => (hc q hq).2]
    congr 1
    refine List.map_congr_left fun q _ => sum_congr rfl fun r hr => ?_
    rw [h _ r (mem_range.1 hr)]
  unfold claims
  dsimp only
  rw [this]

end Verif.Plonk
