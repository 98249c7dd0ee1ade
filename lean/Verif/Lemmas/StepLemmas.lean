import Verif.Lemmas.Rules
import Verif.Spec.RowStep
import Mathlib.Tactic.LinearCombination

/-! The processor gates on two rows (helper for the property theorems). -/

namespace Verif

open Spec

theorem opcode_cases {op : UInt8} (h : op ∈ OPCODES) :
    op = SHL ∨ op = SHR ∨ op = ADD ∨ op = SUB ∨ op = GETCHAR ∨ op = PUTCHAR ∨ op = LB ∨ op = RB := by
  simpa [OPCODES] using h

theorem mem_opcodes (op : UInt8)
    (h : op = SHL ∨ op = SHR ∨ op = ADD ∨ op = SUB ∨ op = GETCHAR ∨ op = PUTCHAR ∨ op = LB ∨ op = RB) :
    op ∈ OPCODES := by
  simpa [OPCODES] using h

/-- `desel` on a fixed opcode: zero for the other seven. -/
theorem desel_at (v : UInt8) (hv : v ∈ OPCODES) :
    (v ≠ ADD → desel ADD (frOfByte v) = 0) ∧ (v ≠ SUB → desel SUB (frOfByte v) = 0) ∧
    (v ≠ SHL → desel SHL (frOfByte v) = 0) ∧ (v ≠ SHR → desel SHR (frOfByte v) = 0) ∧
    (v ≠ GETCHAR → desel GETCHAR (frOfByte v) = 0) ∧
    (v ≠ PUTCHAR → desel PUTCHAR (frOfByte v) = 0) ∧ (v ≠ LB → desel LB (frOfByte v) = 0) ∧
    (v ≠ RB → desel RB (frOfByte v) = 0) := by
  refine ⟨?_, ?_, ?_, ?_, ?_, ?_, ?_, ?_⟩ <;>
    exact fun h => desel_zero (mem_opcodes _ (by simp)) hv h

theorem desel_self (v : UInt8) (hv : v ∈ OPCODES) : desel v (frOfByte v) ≠ 0 :=
  (desel_opcode v hv v hv).2 rfl

/-- Gate P_1 fixes the instruction pointer. -/
theorem polyP1_iff {op : UInt8} (ho : op ∈ OPCODES) (ip ip' mv mvi ni : Fr)
    (h0 : mv * (mv * mvi - 1) = 0) (h1 : mvi * (mv * mvi - 1) = 0) :
    polyP1 (frOfByte op) ip ip' mv mvi ni = 0 ↔ ip' = nextIp op ⟨0, ip, 0, ni, 0, mv⟩ := by
  obtain ⟨z1, z2, z3, z4, z5, z6, z7, z8⟩ := desel_at op ho
  have hs := desel_self op ho
  have hz : mv = 0 → mvi = 0 := by
    intro h; rw [h] at h1; simpa using h1
  have hnz : mv ≠ 0 → mv * mvi - 1 = 0 := by
    intro h; exact (mul_eq_zero.1 h0).resolve_left h
  unfold polyP1 nextIp
  have aux : ∀ x : Fr, x - ip - 1 = 0 ↔ x = ip + 1 := by
    intro x; constructor <;> intro h <;> linear_combination h
  have aux2 : ∀ x : Fr, x - ip - 2 = 0 ↔ x = ip + 2 := by
    intro x; constructor <;> intro h <;> linear_combination h
  rcases opcode_cases ho with rfl | rfl | rfl | rfl | rfl | rfl | rfl | rfl
  · rw [z1 (by decide), z2 (by decide), z4 (by decide), z5 (by decide), z6 (by decide),
      z7 (by decide), z8 (by decide), if_neg (by decide), if_neg (by decide), ← aux]
    simp [hs]
  · rw [z1 (by decide), z2 (by decide), z3 (by decide), z5 (by decide), z6 (by decide),
      z7 (by decide), z8 (by decide), if_neg (by decide), if_neg (by decide), ← aux]
    simp [hs]
  · rw [z4 (by decide), z2 (by decide), z3 (by decide), z5 (by decide), z6 (by decide),
      z7 (by decide), z8 (by decide), if_neg (by decide), if_neg (by decide), ← aux]
    simp [hs]
  · rw [z4 (by decide), z1 (by decide), z3 (by decide), z5 (by decide), z6 (by decide),
      z7 (by decide), z8 (by decide), if_neg (by decide), if_neg (by decide), ← aux]
    simp [hs]
  · rw [z4 (by decide), z1 (by decide), z3 (by decide), z2 (by decide), z6 (by decide),
      z7 (by decide), z8 (by decide), if_neg (by decide), if_neg (by decide), ← aux]
    simp [hs]
  · rw [z4 (by decide), z1 (by decide), z3 (by decide), z2 (by decide), z5 (by decide),
      z7 (by decide), z8 (by decide), if_neg (by decide), if_neg (by decide), ← aux]
    simp [hs]
  · rw [z4 (by decide), z1 (by decide), z3 (by decide), z2 (by decide), z5 (by decide),
      z6 (by decide), z8 (by decide), if_pos (by decide)]
    by_cases hm : mv = 0
    · rw [if_pos hm, hm]
      simp only [add_zero, zero_mul, zero_add, zero_sub, mul_eq_zero, hs, false_or, neg_one_mul,
        neg_eq_zero]
      constructor <;> intro h <;> linear_combination h
    · rw [if_neg hm, hnz hm, ← aux2]
      simp [hs, hm]
  · rw [z4 (by decide), z1 (by decide), z3 (by decide), z2 (by decide), z5 (by decide),
      z6 (by decide), z7 (by decide), if_neg (by decide), if_pos (by decide)]
    by_cases hm : mv = 0
    · rw [if_pos hm, hm, ← aux2]
      simp only [add_zero, zero_mul, zero_add, zero_sub, mul_eq_zero, hs, false_or, neg_one_mul,
        neg_eq_zero]
    · rw [if_neg hm, hnz hm]
      simp only [add_zero, zero_mul, zero_add, mul_eq_zero, hs, false_or, hm]
      constructor <;> intro h <;> linear_combination h

/-- Gate P_2 fixes the memory pointer. -/
theorem polyP2_iff {op : UInt8} (ho : op ∈ OPCODES) (mp mp' : Fr) :
    polyP2 (frOfByte op) mp mp' = 0 ↔ mp' = nextMp op ⟨0, 0, 0, 0, mp, 0⟩ := by
  obtain ⟨z1, z2, z3, z4, z5, z6, z7, z8⟩ := desel_at op ho
  have hs := desel_self op ho
  unfold polyP2 nextMp
  have aux : ∀ x : Fr, x - mp = 0 ↔ x = mp := by
    intro x; constructor <;> intro h <;> linear_combination h
  rcases opcode_cases ho with rfl | rfl | rfl | rfl | rfl | rfl | rfl | rfl
  · rw [z1 (by decide), z2 (by decide), z4 (by decide), z5 (by decide), z6 (by decide),
      z7 (by decide), z8 (by decide), if_pos (by decide)]
    simp only [add_zero, zero_mul, zero_add, mul_eq_zero, hs, false_or]
    constructor <;> intro h <;> linear_combination h
  · rw [z1 (by decide), z2 (by decide), z3 (by decide), z5 (by decide), z6 (by decide),
      z7 (by decide), z8 (by decide), if_neg (by decide), if_pos (by decide)]
    simp only [add_zero, zero_mul, zero_add, mul_eq_zero, hs, false_or]
    constructor <;> intro h <;> linear_combination h
  · rw [z4 (by decide), z2 (by decide), z3 (by decide), z5 (by decide), z6 (by decide),
      z7 (by decide), z8 (by decide), if_neg (by decide), if_neg (by decide), ← aux]
    simp [hs]
  · rw [z4 (by decide), z1 (by decide), z3 (by decide), z5 (by decide), z6 (by decide),
      z7 (by decide), z8 (by decide), if_neg (by decide), if_neg (by decide), ← aux]
    simp [hs]
  · rw [z4 (by decide), z1 (by decide), z3 (by decide), z2 (by decide), z6 (by decide),
      z7 (by decide), z8 (by decide), if_neg (by decide), if_neg (by decide), ← aux]
    simp [hs]
  · rw [z4 (by decide), z1 (by decide), z3 (by decide), z2 (by decide), z5 (by decide),
      z7 (by decide), z8 (by decide), if_neg (by decide), if_neg (by decide), ← aux]
    simp [hs]
  · rw [z4 (by decide), z1 (by decide), z3 (by decide), z2 (by decide), z5 (by decide),
      z6 (by decide), z8 (by decide), if_neg (by decide), if_neg (by decide), ← aux]
    simp [hs]
  · rw [z4 (by decide), z1 (by decide), z3 (by decide), z2 (by decide), z5 (by decide),
      z6 (by decide), z7 (by decide), if_neg (by decide), if_neg (by decide), ← aux]
    simp [hs]

/-- What gate P_3 says about the memory value. -/
theorem polyP3_iff {op : UInt8} (ho : op ∈ OPCODES) (mv mv' : Fr) :
    polyP3 256 (frOfByte op) mv mv' = 0 ↔
      (op = 43 → mv' = mv + 1 ∨ mv' = mv - 255) ∧ (op = 45 → mv' = mv - 1 ∨ mv' = mv + 255) ∧
      (op = 46 ∨ op = 91 ∨ op = 93 → mv' = mv) := by
  obtain ⟨z1, z2, z3, z4, z5, z6, z7, z8⟩ := desel_at op ho
  have hs := desel_self op ho
  unfold polyP3
  have e255 : (((256 - 1 : Nat)) : Fr) = 255 := by norm_num
  rw [e255]
  have aux : ∀ x : Fr, x - mv = 0 ↔ x = mv := by
    intro x; constructor <;> intro h <;> linear_combination h
  rcases opcode_cases ho with rfl | rfl | rfl | rfl | rfl | rfl | rfl | rfl
  · rw [z1 (by decide), z2 (by decide), z6 (by decide), z7 (by decide), z8 (by decide)]
    simp [show ¬ (SHL = 43) by decide, show ¬ (SHL = 45) by decide, show ¬ (SHL = 46) by decide,
      show ¬ (SHL = 91) by decide, show ¬ (SHL = 93) by decide]
  · rw [z1 (by decide), z2 (by decide), z6 (by decide), z7 (by decide), z8 (by decide)]
    simp [show ¬ (SHR = 43) by decide, show ¬ (SHR = 45) by decide, show ¬ (SHR = 46) by decide,
      show ¬ (SHR = 91) by decide, show ¬ (SHR = 93) by decide]
  · rw [z2 (by decide), z6 (by decide), z7 (by decide), z8 (by decide)]
    simp only [show ADD = 43 by decide, forall_const, show ¬ ((43 : UInt8) = 45) by decide,
      show ¬ ((43 : UInt8) = 46) by decide, show ¬ ((43 : UInt8) = 91) by decide,
      show ¬ ((43 : UInt8) = 93) by decide, false_or, false_imp_iff, and_true]
    rw [show ADD = 43 by decide] at hs
    simp only [add_zero, zero_mul, zero_add, mul_zero, mul_eq_zero, hs, false_or]
    constructor
    · rintro (h | h)
      · left; linear_combination h
      · right; linear_combination h
    · rintro (h | h)
      · left; linear_combination h
      · right; linear_combination h
  · rw [z1 (by decide), z6 (by decide), z7 (by decide), z8 (by decide)]
    simp only [show SUB = 45 by decide, forall_const, show ¬ ((45 : UInt8) = 43) by decide,
      show ¬ ((45 : UInt8) = 46) by decide, show ¬ ((45 : UInt8) = 91) by decide,
      show ¬ ((45 : UInt8) = 93) by decide, false_or, false_imp_iff, and_true, true_and]
    rw [show SUB = 45 by decide] at hs
    simp only [add_zero, zero_mul, zero_add, mul_zero, mul_eq_zero, hs, false_or]
    constructor
    · rintro (h | h)
      · left; linear_combination h
      · right; linear_combination h
    · rintro (h | h)
      · left; linear_combination h
      · right; linear_combination h
  · rw [z1 (by decide), z2 (by decide), z6 (by decide), z7 (by decide), z8 (by decide)]
    simp [show ¬ (GETCHAR = 43) by decide, show ¬ (GETCHAR = 45) by decide,
      show ¬ (GETCHAR = 46) by decide, show ¬ (GETCHAR = 91) by decide,
      show ¬ (GETCHAR = 93) by decide]
  · rw [z1 (by decide), z2 (by decide), z7 (by decide), z8 (by decide)]
    simp [show PUTCHAR = 46 by decide]
    rw [show PUTCHAR = 46 by decide] at hs
    simp [hs, aux]
  · rw [z1 (by decide), z2 (by decide), z6 (by decide), z8 (by decide)]
    simp [show LB = 91 by decide]
    rw [show LB = 91 by decide] at hs
    simp [hs, aux]
  · rw [z1 (by decide), z2 (by decide), z6 (by decide), z7 (by decide)]
    simp [show RB = 93 by decide]
    rw [show RB = 93 by decide] at hs
    simp [hs, aux]

/-- Field wrap-around between two bytes is byte wrap-around. -/
theorem byte_add {a b : Fr} (ha : a.val < 256) (hb : b.val < 256) :
    (b = a + 1 ∨ b = a - 255) ↔ b.val = (a.val + 1) % 256 := by
  have hP : (1000 : Nat) < P := by decide +kernel
  have hac : ((a.val : Nat) : Fr) = a := ZMod.natCast_rightInverse a
  have hbc : ((b.val : Nat) : Fr) = b := ZMod.natCast_rightInverse b
  constructor
  · rintro (h | h)
    · have : ((b.val : Nat) : Fr) = ((a.val + 1 : Nat) : Fr) := by push_cast; rw [hac, hbc, h]
      rw [Fr.cast_inj (by omega) (by omega)] at this
      omega
    · have : ((b.val + 255 : Nat) : Fr) = ((a.val : Nat) : Fr) := by
        push_cast; rw [hac, hbc, h]; ring
      rw [Fr.cast_inj (by omega) (by omega)] at this
      omega
  · intro h
    by_cases h1 : a.val = 255
    · right
      have : ((b.val + 255 : Nat) : Fr) = ((a.val : Nat) : Fr) := by congr 1; omega
      push_cast at this
      rw [hac, hbc] at this
      linear_combination this
    · left
      have : ((b.val : Nat) : Fr) = ((a.val + 1 : Nat) : Fr) := by congr 1; omega
      push_cast at this
      rw [hac, hbc] at this
      exact this

theorem byte_sub {a b : Fr} (ha : a.val < 256) (hb : b.val < 256) :
    (b = a - 1 ∨ b = a + 255) ↔ b.val = (a.val + 255) % 256 := by
  have e : (b = a - 1 ∨ b = a + 255) ↔ (a = b + 1 ∨ a = b - 255) := by
    constructor
    · rintro (h | h)
      · left; linear_combination -h
      · right; linear_combination -h
    · rintro (h | h)
      · left; linear_combination -h
      · right; linear_combination -h
  rw [e, byte_add hb ha]
  omega

end Verif
