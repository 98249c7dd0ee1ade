import Verif.Lemmas.PiopDegree
import Verif.Lemmas.PiopRows
import Verif.Lemmas.PolyArith

/-! Committed polynomials, their rotations and the Lagrange basis as polynomials of Mathlib. -/

namespace Verif.Plonk

open Finset Polynomial

/-- The polynomial with the given coefficients. -/
noncomputable def toPoly (c : List Fr) : Fr[X] := ∑ i ∈ range c.length, C (c.getD i 0) * X ^ i

theorem toPoly_eval (c : List Fr) (x : Fr) : (toPoly c).eval x = polyAt c x := by
  unfold toPoly
  rw [polyAt_eq, eval_finsetSum]
  apply sum_congr rfl
  intro i _
  rw [eval_mul, eval_C, eval_pow, eval_X, smul_eq_mul, mul_comm]

theorem toPoly_degree (c : List Fr) {D : Nat} (h : c.length ≤ D + 1) : (toPoly c).natDegree ≤ D := by
  unfold toPoly
  apply natDegree_sum_le_of_forall_le
  intro i hi
  rw [mem_range] at hi
  exact le_trans (natDegree_C_mul_X_pow_le _ _) (by omega)

/-- The polynomial with the variable scaled. -/
noncomputable def scale (w : Fr) (p : Fr[X]) : Fr[X] := p.comp (C w * X)

theorem scale_eval (w : Fr) (p : Fr[X]) (x : Fr) : (scale w p).eval x = p.eval (w * x) := by
  simp [scale]

theorem scale_degree (w : Fr) (p : Fr[X]) {D : Nat} (h : p.natDegree ≤ D) :
    (scale w p).natDegree ≤ D := by
  unfold scale
  refine le_trans natDegree_comp_le ?_
  have : (C w * X : Fr[X]).natDegree ≤ 1 := le_trans (natDegree_C_mul_le _ _) natDegree_X_le
  calc p.natDegree * (C w * X : Fr[X]).natDegree ≤ p.natDegree * 1 := Nat.mul_le_mul_left _ this
    _ ≤ D := by omega

variable {d : Domain} {j k : Nat}

theorem pow_zpow (hd : IsDomain d j k) (r : Nat) (s : Int) :
    d.omega ^ s * d.omega ^ r = d.omega ^ (rotate (2 ^ k) r s) := by
  rw [← zpow_natCast d.omega r, ← zpow_add₀ hd.omega_ne_zero, hd.zpow_mod]
  unfold rotate
  rw [add_comm]

theorem rotate_lt (n row : Nat) (rot : Int) (hn : 0 < n) : rotate n row rot < n := by
  unfold rotate
  have h1 := Int.emod_lt_of_pos ((row : Int) + rot) (show (0 : Int) < n by omega)
  have h2 := Int.emod_nonneg ((row : Int) + rot) (show (n : Int) ≠ 0 by omega)
  omega

/-- The Lagrange basis. -/
theorem exists_basis (hd : IsDomain d j k) : ∃ L : Int → Fr[X],
    (∀ s, (L s).natDegree ≤ 2 ^ k - 1) ∧
    (∀ s, ∀ i < 2 ^ k, (L s).eval (d.omega ^ i) = if rotate (2 ^ k) 0 s = i then 1 else 0) ∧
    ∀ (x : Fr), x ^ 2 ^ k ≠ 1 → ∀ rs : List Int,
      d.lIRange x (x ^ 2 ^ k) rs = rs.map fun s => (L s).eval x := by
  have hpos : 0 < 2 ^ k := by positivity
  have key : ∀ s : Int, ∃ c : List Fr, c.length = 2 ^ k ∧
      ∀ i < 2 ^ k, polyAt c (d.omega ^ i) = if rotate (2 ^ k) 0 s = i then 1 else 0 := by
    intro s
    obtain ⟨c, -, hl, hv⟩ := hd.lagrangeToCoeff_values
      ((List.range (2 ^ k)).map fun i => if rotate (2 ^ k) 0 s = i then (1 : Fr) else 0) (by simp)
    refine ⟨c, hl, fun i hi => ?_⟩
    rw [hv i (by simpa using hi)]
    simp
  choose c hl hv using key
  refine ⟨fun s => toPoly (c s), ?_, ?_, ?_⟩
  · intro s
    exact toPoly_degree _ (by rw [hl]; omega)
  · intro s i hi
    rw [toPoly_eval, hv s i hi]
  · intro x hx rs
    apply List.ext_getElem?
    intro m
    rcases Nat.lt_or_ge m rs.length with hm | hm
    · have hw : ∀ s : Int, x ≠ d.omega ^ s := by
        intro s he
        apply hx
        rw [he, hd.zpow_mod, ← pow_mul, mul_comm, pow_mul, hd.omega.pow_eq_one, one_pow]
      obtain ⟨l, h1, h2⟩ := hd.lIRange_spec x rs m hm (hw _)
      have hrot : d.omega ^ rs[m] = d.omega ^ rotate (2 ^ k) 0 rs[m] := by
        have := pow_zpow hd 0 rs[m]
        rwa [pow_zero, mul_one] at this
      have h3 := h2 (c rs[m]) (hl _) (fun i hi hne => by
        rw [hv _ i hi, if_neg]
        intro he
        exact hne (by rw [hrot, he]))
      rw [hrot, hv _ _ (rotate_lt _ _ _ hpos), if_pos rfl, mul_one] at h3
      rw [h1, List.getElem?_map, List.getElem?_eq_getElem hm, Option.map_some, toPoly_eval, h3]
    · rw [List.getElem?_eq_none (by simpa [Domain.lIRange] using hm),
        List.getElem?_eq_none (by simpa using hm)]

end Verif.Plonk
