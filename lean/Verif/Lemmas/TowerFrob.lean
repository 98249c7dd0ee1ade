import Verif.Lemmas.TowerField

/-! The tables of the code, and raising to powers of q. -/

namespace Verif.Tower

open Spec

/-- ξ^((q-1)/6). -/
noncomputable def gamma : Fq2 Fq := (consts decoded frobFq12C1).getD 1 0

theorem gamma_eq : gamma = (Fq2.xi : Fq2 Fq) ^ ((Q - 1) / 6) := by
  have h := powFast_eq 300 (Fq2.xi : Fq2 Fq) ((Q - 1) / 6) 1 (by decide +kernel)
  rw [one_mul] at h
  rw [← h]
  decide +kernel

/-- The entries of the last table. -/
noncomputable def G (i : Nat) : Fq2 Fq := (consts decoded frobFq12C1).getD (i % 12) 0

theorem conj_mul (a b : Fq2 Fq) : (a * b).conjugate = a.conjugate * b.conjugate := by
  ext <;> simp [Fq2.conjugate]
  ring

theorem conj_conj (a : Fq2 Fq) : a.conjugate.conjugate = a := by
  ext <;> simp [Fq2.conjugate]

theorem conj_pow (a : Fq2 Fq) (n : Nat) : (a ^ n).conjugate = a.conjugate ^ n := by
  induction n with
  | zero => rw [pow_zero, pow_zero]; decide +kernel
  | succ n ih => rw [pow_succ, pow_succ, conj_mul, ih]

theorem G_zero : G 0 = 1 := by decide +kernel

theorem G_step_small : ∀ i : Fin 12, G (i.val + 1) = (G i.val).conjugate * gamma := by decide +kernel

theorem G_mod (i : Nat) : G (i % 12) = G i := by
  unfold G
  rw [Nat.mod_mod]

theorem G_succ (i : Nat) : G (i + 1) = (G i).conjugate * gamma := by
  have h := G_step_small ⟨i % 12, Nat.mod_lt _ (by norm_num)⟩
  dsimp only at h
  rw [G_mod] at h
  rw [← h, ← G_mod (i + 1), ← G_mod (i % 12 + 1)]
  congr 1
  omega

theorem c1_small : ∀ i : Fin 12, (consts decoded frobFq6C1).getD (i.val % 6) 0 = G i.val * G i.val := by decide +kernel

theorem c2_small : ∀ i : Fin 12, (consts decoded frobFq6C2).getD (i.val % 6) 0 = G i.val * G i.val * (G i.val * G i.val) := by
  decide +kernel

theorem c1_eq (i : Nat) : (consts decoded frobFq6C1).getD (i % 6) 0 = G i ^ 2 := by
  have h := c1_small ⟨i % 12, Nat.mod_lt _ (by norm_num)⟩
  dsimp only at h
  rw [G_mod, show i % 12 % 6 = i % 6 by omega] at h
  rw [h, pow_two]

theorem c2_eq (i : Nat) : (consts decoded frobFq6C2).getD (i % 6) 0 = G i ^ 4 := by
  have h := c2_small ⟨i % 12, Nat.mod_lt _ (by norm_num)⟩
  dsimp only at h
  rw [G_mod, show i % 12 % 6 = i % 6 by omega] at h
  rw [h]
  ring

/-- Conjugation, repeated. -/
def conjs (i : Nat) (a : Fq2 Fq) : Fq2 Fq := Fq2.conjugate^[i] a

theorem conjs_succ (i : Nat) (a : Fq2 Fq) : conjs (i + 1) a = (conjs i a).conjugate :=
  Function.iterate_succ_apply' _ _ _

theorem table2 : (frobFq2C1.map decoded).getD 0 0 = 1 ∧ (frobFq2C1.map decoded).getD 1 0 = -1 := by decide +kernel

theorem frob2_eq (i : Nat) (a : Fq2 Fq) : a.frobeniusMap decoded i = conjs i a := by
  induction i with
  | zero =>
    unfold Fq2.frobeniusMap
    rw [Nat.zero_mod, table2.1, mul_one]
    rfl
  | succ i ih =>
    rw [conjs_succ, ← ih]
    unfold Fq2.frobeniusMap Fq2.conjugate
    dsimp only
    rcases Nat.mod_two_eq_zero_or_one i with h | h
    · rw [h, show (i + 1) % 2 = 1 by omega, table2.1, table2.2]
      simp
    · rw [h, show (i + 1) % 2 = 0 by omega, table2.1, table2.2]
      simp

theorem frob6_eq (i : Nat) (a : Fq6 Fq) :
    a.frobeniusMap decoded i = ⟨conjs i a.c0, conjs i a.c1 * G i ^ 2, conjs i a.c2 * G i ^ 4⟩ := by
  unfold Fq6.frobeniusMap
  dsimp only
  rw [Fq2.mulAssign_eq, Fq2.mulAssign_eq, c1_eq, c2_eq, frob2_eq, frob2_eq, frob2_eq]

theorem frob12_eq (i : Nat) (a : Fq12 Fq) : a.frobeniusMap decoded i =
    ⟨⟨conjs i a.c0.c0, conjs i a.c0.c1 * G i ^ 2, conjs i a.c0.c2 * G i ^ 4⟩,
     ⟨conjs i a.c1.c0 * G i, conjs i a.c1.c1 * G i ^ 3, conjs i a.c1.c2 * G i ^ 5⟩⟩ := by
  unfold Fq12.frobeniusMap
  dsimp only
  rw [frob6_eq, frob6_eq, Fq2.mulAssign_eq, Fq2.mulAssign_eq, Fq2.mulAssign_eq]
  dsimp only
  rw [show (consts decoded frobFq12C1).getD (i % 12) 0 = G i from rfl]
  refine Fq12.ext rfl (Fq6.ext rfl ?_ ?_)
  · dsimp only
    ring
  · dsimp only
    ring

/-! Raising to the power q. -/

theorem Fq2.split (a : Fq2 Fq) : a = of a.c0 + of a.c1 * ⟨0, 1⟩ := by ext <;> simp

theorem u_sq : (⟨0, 1⟩ : Fq2 Fq) ^ 2 = -1 := by
  rw [pow_two]
  decide +kernel

theorem u_pow : (⟨0, 1⟩ : Fq2 Fq) ^ Q = -⟨0, 1⟩ := by
  have h : ∀ n : Nat, n = 2 * (n / 2) + 1 → n / 2 % 2 = 1 → (⟨0, 1⟩ : Fq2 Fq) ^ n = -⟨0, 1⟩ := by
    intro n h1 h2
    rw [h1, pow_add, pow_mul, u_sq, pow_one, Odd.neg_one_pow (Nat.odd_iff.2 h2), neg_one_mul]
  exact h Q (by decide +kernel) (by decide +kernel)

theorem pow_q2 (a : Fq2 Fq) : a ^ Q = a.conjugate := by
  conv_lhs => rw [Fq2.split a]
  rw [add_pow_char, mul_pow, ← map_pow, ← map_pow, ZMod.pow_card, ZMod.pow_card, u_pow]
  ext <;> simp [Fq2.conjugate]

theorem v_cube : (Fq6.v : Fq6 Fq) ^ 3 = Fq6.of Fq2.xi := by
  refine Fq6.ext ?_ ?_ ?_ <;> simp [Fq6.v, pow_succ]

theorem w_sq : (Fq12.w : Fq12 Fq) ^ 2 = Fq12.of Fq6.v := by
  refine Fq12.ext ?_ ?_ <;> simp [Fq12.w, pow_succ]

theorem v_pow : (Fq6.v : Fq6 Fq) ^ Q = Fq6.of (gamma ^ 2) * Fq6.v := by
  rw [gamma_eq, ← pow_mul, map_pow, ← v_cube, ← pow_mul, ← pow_succ]
  congr 1

theorem w_pow : (Fq12.w : Fq12 Fq) ^ Q = Fq12.of (Fq6.of gamma) * Fq12.w := by
  rw [gamma_eq, map_pow, ← v_cube, ← pow_mul, map_pow, ← w_sq, ← pow_mul, ← pow_succ]
  congr 1

theorem Fq6.split (a : Fq6 Fq) : a = of a.c0 + of a.c1 * v + of a.c2 * v ^ 2 := by
  refine Fq6.ext ?_ ?_ ?_ <;> simp [v, pow_two]

theorem Fq12.split (a : Fq12 Fq) : a = of a.c0 + of a.c1 * w := by
  refine Fq12.ext ?_ ?_ <;> simp [w]

theorem pow_q6 (a : Fq6 Fq) :
    a ^ Q = ⟨a.c0.conjugate, a.c1.conjugate * gamma ^ 2, a.c2.conjugate * gamma ^ 4⟩ := by
  conv_lhs => rw [Fq6.split a]
  rw [add_pow_char, add_pow_char, mul_pow, mul_pow, ← pow_mul, mul_comm 2 Q, pow_mul, v_pow, ← map_pow, ← map_pow,
    ← map_pow, pow_q2, pow_q2, pow_q2, mul_pow, ← map_pow]
  rw [Fq6.split ⟨_, _, _⟩]
  dsimp only
  rw [map_mul, map_mul]
  rw [show gamma ^ 4 = (gamma ^ 2) ^ 2 by ring]
  ring

theorem pow_q12 (a : Fq12 Fq) : a ^ Q =
    ⟨⟨a.c0.c0.conjugate, a.c0.c1.conjugate * gamma ^ 2, a.c0.c2.conjugate * gamma ^ 4⟩,
     ⟨a.c1.c0.conjugate * gamma, a.c1.c1.conjugate * gamma ^ 3, a.c1.c2.conjugate * gamma ^ 5⟩⟩ := by
  conv_lhs => rw [Fq12.split a]
  rw [add_pow_char, mul_pow, ← map_pow, ← map_pow, pow_q6, pow_q6, w_pow, ← mul_assoc, ← map_mul]
  refine Fq12.ext ?_ ?_
  · simp [Fq12.w]
  · rw [Fq12.add_c1, Fq12.mul_c1]
    simp only [Fq12.of_c0, Fq12.of_c1, Fq12.w, mul_zero, mul_one, zero_add, add_zero]
    refine Fq6.ext ?_ ?_ ?_
    · simp
    · simp
      ring
    · simp
      ring

/-- The code's Frobenius maps are powers. -/
theorem frob12_pow (i : Nat) (a : Fq12 Fq) : a.frobeniusMap decoded i = a ^ Q ^ i := by
  induction i with
  | zero =>
    rw [frob12_eq, pow_zero, pow_one, G_zero]
    simp [conjs]
  | succ i ih =>
    rw [pow_succ, pow_mul, ← ih, pow_q12, frob12_eq, frob12_eq, G_succ]
    dsimp only
    simp only [conjs_succ, conj_mul, conj_pow]
    refine Fq12.ext (Fq6.ext rfl ?_ ?_) (Fq6.ext ?_ ?_ ?_) <;> dsimp only <;> ring

theorem frob6_pow (i : Nat) (a : Fq6 Fq) : a.frobeniusMap decoded i = a ^ Q ^ i := by
  induction i with
  | zero =>
    rw [frob6_eq, pow_zero, pow_one, G_zero]
    simp [conjs]
  | succ i ih =>
    rw [pow_succ, pow_mul, ← ih, pow_q6, frob6_eq, frob6_eq, G_succ]
    dsimp only
    simp only [conjs_succ, conj_mul, conj_pow]
    refine Fq6.ext rfl ?_ ?_ <;> dsimp only <;> ring

theorem frob2_pow (i : Nat) (a : Fq2 Fq) : a.frobeniusMap decoded i = a ^ Q ^ i := by
  induction i with
  | zero => rw [frob2_eq, pow_zero, pow_one]; rfl
  | succ i ih => rw [pow_succ, pow_mul, ← ih, pow_q2, frob2_eq, frob2_eq, conjs_succ]

end Verif.Tower
