import Verif.Lemmas.PiopModel
import Mathlib.Tactic.LinearCombination

/-! From expressions that vanish in every row to equal products. -/

namespace Verif.Plonk

open Finset

/-- The formulas in the rows `0, ..., n - 1`, of which the first `u` are usable. -/
structure RowFamily (n u : Nat) (row : Nat → Opened Fr) : Prop where
  usable : 0 < u
  less : u < n
  l0 : ∀ r < n, (row r).l0 = if r = 0 then 1 else 0
  lLast : ∀ r < n, (row r).lLast = if r = u then 1 else 0
  lBlind : ∀ r < n, (row r).lBlind = if u < r then 1 else 0
  zNext : ∀ t r, r + 1 < n → (row r).zNext t = (row (r + 1)).z t
  zLast : ∀ t, (row 0).zLast t = (row u).z t
  lzNext : ∀ t r, r + 1 < n → (row r).lzNext t = (row (r + 1)).lz t
  laInv : ∀ t r, r + 1 < n → (row (r + 1)).laInv t = (row r).la t

variable {n u : Nat} {row : Nat → Opened Fr}

theorem RowFamily.active (h : RowFamily n u row) {r : Nat} (hr : r < u) : (row r).active = 1 := by
  have := h.less
  unfold Opened.active
  rw [h.lLast r (by omega), h.lBlind r (by omega), if_neg (by omega), if_neg (by omega)]
  simp

/-- A running product. -/
theorem telescope (Z L R : Nat → Fr) (u : Nat) (h : ∀ r < u, Z (r + 1) * L r = Z r * R r) :
    Z u * ∏ r ∈ range u, L r = Z 0 * ∏ r ∈ range u, R r := by
  induction u with
  | zero => simp
  | succ u ih =>
    have h1 := ih fun r hr => h r (by omega)
    have h2 := h u (by omega)
    rw [prod_range_succ, prod_range_succ]
    linear_combination (∏ x ∈ range u, L x) * h2 + R u * h1

theorem parts_prod (cs : CS) (f : Nat → Fr) : ∀ s, s ≤ numSets cs →
    ∏ t ∈ range s, ∏ i ∈ part cs t, f i = ∏ i ∈ range (min (s * partLen cs) cs.permutation.length), f i := by
  intro s
  induction s with
  | zero => simp
  | succ s ih =>
    intro hs
    have hlt := part_lt (cs := cs) (t := s) (by omega)
    rw [prod_range_succ, ih (by omega)]
    unfold part
    rw [range_eq_Ico, range_eq_Ico, show min (s * partLen cs) cs.permutation.length = s * partLen cs by omega,
      Finset.prod_Ico_consecutive _ (by omega) (by omega)]
    congr 2
    rw [Nat.add_mul, one_mul]

theorem numSets_cover (cs : CS) : cs.permutation.length ≤ numSets cs * partLen cs := by
  have hp := partLen_pos cs
  unfold numSets
  have := Nat.lt_div_mul_add (a := cs.permutation.length + partLen cs - 1) hp
  omega

/-- All columns are in exactly one part. -/
theorem all_parts (cs : CS) (f : Nat → Fr) :
    ∏ t ∈ range (numSets cs), ∏ i ∈ part cs t, f i = ∏ i ∈ range cs.permutation.length, f i := by
  rw [parts_prod cs f _ le_rfl, min_eq_right (numSets_cover cs)]

/-- The permutation argument ties the products over all cells. -/
theorem perm_products (cs : CS) (h : RowFamily n u row)
    (hz : ∀ r < n, ∀ v ∈ permOf cs (row r), v = 0) :
    ∃ zl : Fr, (zl = 0 ∨ zl = 1) ∧
      zl * ∏ i ∈ range cs.permutation.length, ∏ r ∈ range u, leftOf cs (row r) i =
        ∏ i ∈ range cs.permutation.length, ∏ r ∈ range u, rightOf cs (row r) i := by
  have hu := h.usable
  have hlt := h.less
  rcases Nat.eq_zero_or_pos (numSets cs) with h0 | hpos
  · refine ⟨1, .inr rfl, ?_⟩
    have := numSets_cover cs
    rw [h0] at this
    simp [show cs.permutation.length = 0 by omega]
  · refine ⟨(row u).z (numSets cs - 1), ?_, ?_⟩
    · have := hz u hlt _ (by
        unfold permOf
        rw [if_neg (by omega)]
        exact List.mem_append_left _ (List.mem_append_left _ (List.mem_cons_of_mem _ (List.mem_cons_self ..))))
      rw [h.lLast u hlt, if_pos rfl, mul_one] at this
      have : (row u).z (numSets cs - 1) * ((row u).z (numSets cs - 1) - 1) = 0 := by
        linear_combination this
      rcases mul_eq_zero.1 this with h | h
      · exact .inl h
      · exact .inr (sub_eq_zero.1 h)
    · have first : (row 0).z 0 = 1 := by
        have := hz 0 (by omega) _ (by
          unfold permOf
          rw [if_neg (by omega)]
          exact List.mem_append_left _ (List.mem_append_left _ (List.mem_cons_self ..)))
        rw [h.l0 0 (by omega), if_pos rfl, one_mul] at this
        exact (sub_eq_zero.1 this).symm
      have link : ∀ t, t + 1 < numSets cs → (row 0).z (t + 1) = (row u).z t := by
        intro t ht
        have := hz 0 (by omega) _ (by
          unfold permOf
          exact List.mem_append_left _ (List.mem_append_right _ (List.mem_map_of_mem
            (List.mem_range.2 (show t < numSets cs - 1 by omega)))))
        rw [h.l0 0 (by omega), if_pos rfl, mul_one, h.zLast] at this
        exact sub_eq_zero.1 this
      have step : ∀ t < numSets cs, ∀ r < u, (row (r + 1)).z t * ∏ i ∈ part cs t, leftOf cs (row r) i
          = (row r).z t * ∏ i ∈ part cs t, rightOf cs (row r) i := by
        intro t ht r hr
        have := hz r (by omega) _ (by
          unfold permOf
          exact List.mem_append_right _ (List.mem_map_of_mem (List.mem_range.2 ht)))
        rw [h.active hr, mul_one, h.zNext t r (by omega)] at this
        exact sub_eq_zero.1 this
      have tele : ∀ t < numSets cs, (row u).z t * ∏ r ∈ range u, ∏ i ∈ part cs t, leftOf cs (row r) i
          = (row 0).z t * ∏ r ∈ range u, ∏ i ∈ part cs t, rightOf cs (row r) i := fun t ht =>
        telescope (fun r => (row r).z t) _ _ u (step t ht)
      have chain : ∀ t < numSets cs, (row u).z t *
          ∏ s ∈ range (t + 1), ∏ r ∈ range u, ∏ i ∈ part cs s, leftOf cs (row r) i =
          ∏ s ∈ range (t + 1), ∏ r ∈ range u, ∏ i ∈ part cs s, rightOf cs (row r) i := by
        intro t
        induction t with
        | zero =>
          intro ht
          have := tele 0 ht
          rw [first, one_mul] at this
          simpa using this
        | succ t ih =>
          intro ht
          have h1 := ih (by omega)
          have h2 := tele (t + 1) ht
          rw [link t ht] at h2
          rw [prod_range_succ _ (t + 1), prod_range_succ _ (t + 1)]
          linear_combination (∏ s ∈ range (t + 1), ∏ r ∈ range u, ∏ i ∈ part cs s, leftOf cs (row r) i) * h2
            + (∏ r ∈ range u, ∏ i ∈ part cs (t + 1), rightOf cs (row r) i) * h1
      have h1 := chain (numSets cs - 1) (by omega)
      rw [show numSets cs - 1 + 1 = numSets cs by omega] at h1
      have swap : ∀ f : Nat → Nat → Fr,
          ∏ s ∈ range (numSets cs), ∏ r ∈ range u, ∏ i ∈ part cs s, f r i =
          ∏ i ∈ range cs.permutation.length, ∏ r ∈ range u, f r i := by
        intro f
        rw [prod_comm, prod_comm (s := range cs.permutation.length)]
        exact prod_congr rfl fun r _ => all_parts cs _
      rw [swap fun r i => leftOf cs (row r) i, swap fun r i => rightOf cs (row r) i] at h1
      exact h1

/-- The lookup argument ties the products over the usable rows, and the permuted columns obey the rule
of adjacent rows. -/
theorem lookup_products (h : RowFamily n u row) (l : Lookup) (t : Nat)
    (hz : ∀ r < n, ∀ v ∈ lookupOf (row r) l t, v = 0) :
    ((row 0).la t = (row 0).ls t) ∧
    (∀ r, r + 1 < u → (row (r + 1)).la t = (row (r + 1)).ls t ∨ (row (r + 1)).la t = (row r).la t) ∧
    ∃ zl : Fr, (zl = 0 ∨ zl = 1) ∧
      zl * ∏ r ∈ range u, ((row r).la t + (row r).beta) * ((row r).ls t + (row r).gamma) =
        ∏ r ∈ range u, ((row r).comp l.input + (row r).beta) * ((row r).comp l.table + (row r).gamma) := by
  have hu := h.usable
  have hlt := h.less
  unfold lookupOf at hz
  simp only [List.mem_cons, List.not_mem_nil, or_false, forall_eq_or_imp, forall_eq] at hz
  refine ⟨?_, ?_, (row u).lz t, ?_, ?_⟩
  · have := (hz 0 (by omega)).2.2.2.1
    rw [h.l0 0 (by omega), if_pos rfl, one_mul] at this
    exact sub_eq_zero.1 this
  · intro r hr
    have := (hz (r + 1) (by omega)).2.2.2.2
    rw [h.active hr, mul_one, h.laInv t r (by omega)] at this
    rcases mul_eq_zero.1 this with h | h
    · exact .inl (sub_eq_zero.1 h)
    · exact .inr (sub_eq_zero.1 h)
  · have := (hz u hlt).2.1
    rw [h.lLast u hlt, if_pos rfl, one_mul] at this
    have : (row u).lz t * ((row u).lz t - 1) = 0 := by linear_combination this
    rcases mul_eq_zero.1 this with h | h
    · exact .inl h
    · exact .inr (sub_eq_zero.1 h)
  · have first : (row 0).lz t = 1 := by
      have := (hz 0 (by omega)).1
      rw [h.l0 0 (by omega), if_pos rfl, one_mul] at this
      exact (sub_eq_zero.1 this).symm
    have := telescope (fun r => (row r).lz t)
      (fun r => ((row r).la t + (row r).beta) * ((row r).ls t + (row r).gamma))
      (fun r => ((row r).comp l.input + (row r).beta) * ((row r).comp l.table + (row r).gamma)) u
      (fun r hr => by
        have := (hz r (by omega)).2.2.1
        rw [h.active hr, mul_one, h.lzNext t r (by omega)] at this
        linear_combination this)
    rw [this, first, one_mul]

end Verif.Plonk
