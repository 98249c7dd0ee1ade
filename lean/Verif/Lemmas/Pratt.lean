import Mathlib.NumberTheory.LucasPrimality
import Mathlib.Tactic.NormNum.Prime
import Mathlib.Tactic.Ring
import Mathlib.Data.ZMod.Basic

/-!
Kernel-checkable Pratt certificates: used to prove that the bn256 scalar
modulus is prime. Helper file, not part of any model.
-/

namespace Verif.Pratt

/-- Square-and-multiply modulo `m`, with fuel for structural recursion. -/
def powMod (m : Nat) : Nat → Nat → Nat → Nat → Nat
  | 0, _, _, acc => acc
  | fuel + 1, a, e, acc =>
    if e = 0 then acc
    else powMod m fuel (a * a % m) (e / 2) (if e % 2 = 1 then acc * a % m else acc)

theorem powMod_cast (m fuel : Nat) : ∀ a e acc, e < 2 ^ fuel →
    ((powMod m fuel a e acc : Nat) : ZMod m) = acc * (a : ZMod m) ^ e := by
  induction fuel with
  | zero => intro a e acc h; have : e = 0 := by omega
            subst this; simp [powMod]
  | succ n ih =>
    intro a e acc h
    unfold powMod
    split
    · next h0 => subst h0; simp
    · rw [ih _ _ _ (by rw [pow_succ] at h; omega)]
      have he : e = 2 * (e / 2) + e % 2 := by omega
      conv_rhs => rw [he, pow_add, pow_mul]
      rcases Nat.mod_two_eq_zero_or_one e with h2 | h2
      · simp [h2, sq]
      · simp [h2, sq]; ring

/-- The check of one Pratt step: `g` has order `p - 1` given the prime factors `fs` of `p - 1`. -/
def check (p g fuel : Nat) (fs : List Nat) : Bool :=
  decide (1 < p) && decide (p - 1 < 2 ^ fuel) && decide (fs.prod = p - 1) &&
    decide (powMod p fuel g (p - 1) 1 = 1) &&
    fs.all (fun q => decide (powMod p fuel g ((p - 1) / q) 1 % p ≠ 1))

theorem prime_of_check (p g fuel : Nat) (fs : List Nat) (hfs : ∀ q ∈ fs, q.Prime)
    (h : check p g fuel fs = true) : p.Prime := by
  simp only [check, Bool.and_eq_true, decide_eq_true_eq, List.all_eq_true] at h
  obtain ⟨⟨⟨⟨h1, h2⟩, h3⟩, h4⟩, h5⟩ := h
  refine lucas_primality p (g : ZMod p) ?_ ?_
  · have := powMod_cast p fuel g (p - 1) 1 h2
    rw [h4] at this; simpa using this.symm
  · intro q hq hdvd he
    have hmem : q ∈ fs := by
      rw [← h3] at hdvd
      rw [hq.prime.dvd_prod_iff] at hdvd
      obtain ⟨a, ha, hqa⟩ := hdvd
      have := (Nat.prime_dvd_prime_iff_eq hq (hfs a ha)).1 hqa
      exact this ▸ ha
    have := h5 q hmem
    have hc := powMod_cast p fuel g ((p - 1) / q) 1 (lt_of_le_of_lt (Nat.div_le_self _ _) h2)
    rw [he] at hc
    have h1' : ((1 : Nat) : ZMod p) = 1 := by simp
    rw [Nat.cast_one, mul_one, ← h1'] at hc
    have := (ZMod.natCast_eq_natCast_iff' _ _ _).1 hc
    rw [Nat.mod_eq_of_lt h1] at this
    exact h5 q hmem this

theorem prime_12048837557 : Nat.Prime 12048837557 :=
  prime_of_check _ 2 34 [2, 2, 7, 7, 661, 93001]
    (by intro q hq; simp only [List.mem_cons, List.not_mem_nil, or_false] at hq
        rcases hq with rfl | rfl | rfl | rfl | rfl | rfl <;> norm_num)
    (by decide +kernel)

theorem prime_5156902474397 : Nat.Prime 5156902474397 :=
  prime_of_check _ 2 43 [2, 2, 107, 12048837557]
    (by intro q hq; simp only [List.mem_cons, List.not_mem_nil, or_false] at hq
        rcases hq with rfl | rfl | rfl | rfl
        · norm_num
        · norm_num
        · norm_num
        · exact prime_12048837557)
    (by decide +kernel)

theorem prime_1670836401704629 : Nat.Prime 1670836401704629 :=
  prime_of_check _ 2 51 [2, 2, 3, 3, 3, 3, 5156902474397]
    (by intro q hq; simp only [List.mem_cons, List.not_mem_nil, or_false] at hq
        rcases hq with rfl | rfl | rfl | rfl | rfl | rfl | rfl
        · norm_num
        · norm_num
        · norm_num
        · norm_num
        · norm_num
        · norm_num
        · exact prime_5156902474397)
    (by decide +kernel)

theorem prime_639533339 : Nat.Prime 639533339 :=
  prime_of_check _ 2 30 [2, 229, 853, 1637]
    (by intro q hq; simp only [List.mem_cons, List.not_mem_nil, or_false] at hq
        rcases hq with rfl | rfl | rfl | rfl <;> norm_num)
    (by decide +kernel)

theorem prime_405928799 : Nat.Prime 405928799 :=
  prime_of_check _ 22 29 [2, 11, 3691, 4999]
    (by intro q hq; simp only [List.mem_cons, List.not_mem_nil, or_false] at hq
        rcases hq with rfl | rfl | rfl | rfl <;> norm_num)
    (by decide +kernel)

theorem prime_65865678001877903 : Nat.Prime 65865678001877903 :=
  prime_of_check _ 5 57 [2, 83, 379, 1637, 639533339]
    (by intro q hq; simp only [List.mem_cons, List.not_mem_nil, or_false] at hq
        rcases hq with rfl | rfl | rfl | rfl | rfl
        · norm_num
        · norm_num
        · norm_num
        · norm_num
        · exact prime_639533339)
    (by decide +kernel)

theorem prime_13818364434197438864469338081 : Nat.Prime 13818364434197438864469338081 :=
  prime_of_check _ 3 94 [2, 2, 2, 2, 2, 5, 823, 1593227, 65865678001877903]
    (by intro q hq; simp only [List.mem_cons, List.not_mem_nil, or_false] at hq
        rcases hq with rfl | rfl | rfl | rfl | rfl | rfl | rfl | rfl | rfl
        · norm_num
        · norm_num
        · norm_num
        · norm_num
        · norm_num
        · norm_num
        · norm_num
        · norm_num
        · exact prime_65865678001877903)
    (by decide +kernel)

theorem prime_bn256_scalar :
    Nat.Prime 21888242871839275222246405745257275088548364400416034343698204186575808495617 :=
  prime_of_check _ 5 254
    (List.replicate 28 2 ++ [3, 3, 13, 29, 983, 11003, 237073, 405928799, 1670836401704629,
      13818364434197438864469338081])
    (by intro q hq
        simp only [List.mem_append, List.mem_replicate, List.mem_cons, List.not_mem_nil,
          or_false] at hq
        rcases hq with ⟨-, rfl⟩ | rfl | rfl | rfl | rfl | rfl | rfl | rfl | rfl | rfl | rfl
        · norm_num
        · norm_num
        · norm_num
        · norm_num
        · norm_num
        · norm_num
        · norm_num
        · norm_num
        · exact prime_405928799
        · exact prime_1670836401704629
        · exact prime_13818364434197438864469338081)
    (by decide +kernel)

end Verif.Pratt
