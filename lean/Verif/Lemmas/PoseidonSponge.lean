import Verif.Model.Poseidon
import Verif.Spec.Poseidon
import Mathlib.Tactic.Ring

/-! The sponge. -/

namespace Verif.Pos

open Spec.Poseidon

variable {F : Type} [Field F] {t : Nat}

omit [Field F] in
theorem blocks_short {r : Nat} {l : List F} (h : l.length < r) : blocks r l = [] := by
  unfold blocks
  rw [Nat.div_eq_of_lt h]
  rfl

omit [Field F] in
theorem rest_short {r : Nat} {l : List F} (h : l.length < r) : rest r l = l := by
  unfold rest
  rw [Nat.div_eq_of_lt h, Nat.zero_mul]
  rfl

omit [Field F] in
theorem blocks_long {r : Nat} {l : List F} (hr : 0 < r) (h : r ≤ l.length) :
    blocks r l = l.take r :: blocks r (l.drop r) := by
  unfold blocks
  rw [List.length_drop, Nat.div_eq_sub_div hr h, List.range_succ_eq_map, List.map_cons, List.map_map]
  congr 1
  · rw [Nat.zero_mul, List.drop_zero]
  · refine List.map_congr_left fun i _ => ?_
    show (l.drop ((i + 1) * r)).take r = ((l.drop r).drop (i * r)).take r
    rw [List.drop_drop]
    congr 2
    ring

omit [Field F] in
theorem rest_long {r : Nat} {l : List F} (hr : 0 < r) (h : r ≤ l.length) : rest r l = rest r (l.drop r) := by
  unfold rest
  rw [List.length_drop, Nat.div_eq_sub_div hr h, List.drop_drop]
  congr 1
  ring

theorem addInputs_eq (v : Vec F (t + 2)) (l : List F) : addInputs v l = addBlock v l := by
  funext i
  unfold addInputs addBlock
  refine Fin.cases ?_ (fun i => ?_) i
  · rfl
  · show (match l[i.val]? with | some x => v i.succ + x | none => v i.succ) = _
    rw [if_neg (Fin.succ_ne_zero i), List.getD_eq_getElem?_getD]
    show _ = v i.succ + (l[i.val + 1 - 1]?).getD 0
    rw [Nat.add_sub_cancel]
    cases l[i.val]? with
    | none => simp
    | some x => rfl

/-- Zeros behind a block change nothing. -/
theorem addBlock_zeros (v : Vec F (t + 2)) (l : List F) (k : Nat) :
    addBlock v (l ++ List.replicate k 0) = addBlock v l := by
  funext i
  unfold addBlock
  congr 1
  congr 1
  rw [List.getD_eq_getElem?_getD, List.getD_eq_getElem?_getD]
  generalize i.val - 1 = j
  by_cases hj : j < l.length
  · rw [List.getElem?_append_left hj]
  · rw [List.getElem?_append_right (by omega), List.getElem?_replicate, List.getElem?_eq_none (by omega)]
    split <;> rfl

theorem absorb_eq (perm : Vec F (t + 2) → Vec F (t + 2)) : ∀ (fuel : Nat) (v : Vec F (t + 2)) (kept l : List F),
    l.length ≤ fuel → (l = [] → kept = []) →
    absorb perm fuel v kept l = ⟨absorbBlocks perm v (blocks (t + 1) l), rest (t + 1) l⟩ := by
  intro fuel
  induction fuel with
  | zero =>
    intro v kept l hl hk
    have := List.length_eq_zero_iff.1 (Nat.le_zero.1 hl)
    subst this
    rw [hk rfl, blocks_short (by simp), rest_short (by simp)]
    rfl
  | succ fuel ih =>
    intro v kept l hl hk
    cases l with
    | nil =>
      rw [hk rfl, blocks_short (by simp), rest_short (by simp)]
      rfl
    | cons x l =>
      unfold absorb
      by_cases h : (x :: l).length < t + 1
      · rw [if_pos h, blocks_short h, rest_short h]
        rfl
      · rw [if_neg h, ih _ _ _ (by rw [List.length_drop]; omega) (fun _ => rfl),
          blocks_long (l := x :: l) (by omega) (by omega), rest_long (l := x :: l) (by omega) (by omega), addInputs_eq]
        rfl

/-- The sponge after a list, from the beginning or from a state with nothing waiting. -/
def after (perm : Vec F (t + 2) → Vec F (t + 2)) (v : Vec F (t + 2)) (l : List F) : Sponge F t :=
  ⟨absorbBlocks perm v (blocks (t + 1) l), rest (t + 1) l⟩

theorem update_fresh (perm : Vec F (t + 2) → Vec F (t + 2)) (v : Vec F (t + 2)) (l : List F) :
    Sponge.update perm ⟨v, []⟩ l = after perm v l :=
  absorb_eq perm _ v [] _ (le_refl _) fun _ => rfl

theorem after_append (perm : Vec F (t + 2) → Vec F (t + 2)) : ∀ (n : Nat) (v : Vec F (t + 2)) (l m : List F),
    l.length = n → Sponge.update perm (after perm v l) m = after perm v (l ++ m) := by
  intro n
  induction n using Nat.strongRecOn with
  | _ n ih =>
    intro v l m hn
    by_cases h : l.length < t + 1
    · have e : after perm v l = ⟨v, l⟩ := by
        unfold after
        rw [blocks_short h, rest_short h]
        rfl
      rw [e]
      unfold Sponge.update
      exact absorb_eq perm _ v l _ (le_refl _) fun h => (List.append_eq_nil_iff.1 h).1
    · have e : ∀ k : List F, t + 1 ≤ k.length → after perm v k = after perm (perm (addBlock v (k.take (t + 1)))) (k.drop (t + 1)) := by
        intro k hk
        unfold after
        rw [blocks_long (by omega) hk, rest_long (by omega) hk]
        rfl
      rw [e l (by omega), ih _ (by rw [List.length_drop]; omega) _ _ _ rfl, e (l ++ m) (by rw [List.length_append]; omega)]
      rw [List.take_append_of_le_length (by omega), List.drop_append_of_le_length (by omega)]

theorem padded_long {r : Nat} {l : List F} (h : r ≤ l.length) : padded r l = l.take r ++ padded r (l.drop r) := by
  unfold padded
  rw [List.length_drop, ← Nat.mod_eq_sub_mod h, ← List.append_assoc, List.take_append_drop]

theorem padded_length {r : Nat} (hr : 0 < r) (l : List F) : (padded r l).length = (l.length / r + 1) * r := by
  unfold padded
  rw [List.length_append, List.length_cons, List.length_replicate]
  have h1 := Nat.div_add_mod l.length r
  have h2 := Nat.mod_lt l.length hr
  rw [Nat.add_mul, Nat.mul_comm (l.length / r) r]
  omega

theorem squeeze_after (perm : Vec F (t + 2) → Vec F (t + 2)) : ∀ (n : Nat) (v : Vec F (t + 2)) (l : List F),
    l.length = n → (after perm v l).squeeze perm =
      (absorbBlocks perm v (blocks (t + 1) (padded (t + 1) l)) 1,
        ⟨absorbBlocks perm v (blocks (t + 1) (padded (t + 1) l)), []⟩) := by
  intro n
  induction n using Nat.strongRecOn with
  | _ n ih =>
    intro v l hn
    by_cases h : l.length < t + 1
    · have e : after perm v l = ⟨v, l⟩ := by
        unfold after
        rw [blocks_short h, rest_short h]
        rfl
      have hlen : (padded (t + 1) l).length = t + 1 := by
        rw [padded_length (by omega), Nat.div_eq_of_lt h]
        omega
      have e2 : blocks (t + 1) (padded (t + 1) l) = [padded (t + 1) l] := by
        rw [blocks_long (by omega) (by omega), List.take_of_length_le (by omega), List.drop_of_length_le (by omega),
          blocks_short (by simp)]
      have e3 : addBlock v (padded (t + 1) l) = addInputs v (l ++ [1]) := by
        unfold padded
        rw [addInputs_eq, ← addBlock_zeros v (l ++ [1]) (t + 1 - 1 - l.length % (t + 1)), List.append_assoc]
        rfl
      rw [e, e2]
      unfold Sponge.squeeze absorbBlocks
      rw [List.foldl_cons, List.foldl_nil, e3]
    · have e : after perm v l = after perm (perm (addBlock v (l.take (t + 1)))) (l.drop (t + 1)) := by
        unfold after
        rw [blocks_long (by omega) (by omega : t + 1 ≤ l.length), rest_long (by omega) (by omega : t + 1 ≤ l.length)]
        rfl
      have hlen : (l.take (t + 1)).length = t + 1 := by rw [List.length_take]; omega
      have e2 : blocks (t + 1) (padded (t + 1) l) = l.take (t + 1) :: blocks (t + 1) (padded (t + 1) (l.drop (t + 1))) := by
        rw [padded_long (by omega : t + 1 ≤ l.length), blocks_long (by omega) (by rw [List.length_append]; omega),
          List.take_append_of_le_length (by omega), List.drop_append_of_le_length (by omega),
          List.take_of_length_le (by omega), List.drop_of_length_le (by omega), List.nil_append]
      rw [e, ih _ (by rw [List.length_drop]; omega) _ _ rfl, e2]
      rfl

/-- What comes before the padding. -/
theorem padded_inj [DecidableEq F] {r : Nat} {l m : List F} (h : padded r l = padded r m) : l = m := by
  have key : ∀ l : List F, ((padded r l).reverse.dropWhile (fun x => decide (x = 0))).tail.reverse = l := by
    intro l
    unfold padded
    rw [List.reverse_append, List.reverse_cons, List.reverse_replicate, List.append_assoc]
    have : ∀ (k : Nat) (b : List F), (List.replicate k (0 : F) ++ (1 :: b)).dropWhile (fun x => decide (x = 0)) = 1 :: b := by
      intro k b
      induction k with
      | zero => simp
      | succ k ih => rw [List.replicate_succ, List.cons_append, List.dropWhile_cons_of_pos (by simp), ih]
    show ((List.replicate _ (0 : F) ++ (1 :: l.reverse)).dropWhile _).tail.reverse = l
    rw [this]
    simp
  rw [← key l, ← key m, h]

omit [Field F] in
theorem blocks_append {r : Nat} (hr : 0 < r) : ∀ (q : Nat) (l m : List F), l.length = q * r →
    blocks r (l ++ m) = blocks r l ++ blocks r m := by
  intro q
  induction q with
  | zero =>
    intro l m h
    have := List.length_eq_zero_iff.1 (h.trans (Nat.zero_mul _))
    subst this
    rw [blocks_short (l := []) hr]
    rfl
  | succ q ih =>
    intro l m h
    have h1 : r ≤ l.length := by rw [h, Nat.add_mul]; omega
    rw [blocks_long hr h1, blocks_long hr (by rw [List.length_append]; omega), List.take_append_of_le_length h1,
      List.drop_append_of_le_length h1, ih _ _ (by rw [List.length_drop, h, Nat.add_mul]; omega)]
    rfl

end Verif.Pos
