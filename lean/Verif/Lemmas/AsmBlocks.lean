import Verif.Lemmas.Asm

/-! Helper lemmas for the assembly: multiply-and-add blocks. -/

namespace Verif.Asm

/-- The arrays hold words. -/
structure EnvOk (e : Env) : Prop where
  a : ∀ i, e.a i < W64
  b : ∀ i, e.b i < W64
  m : ∀ i, e.m i < W64
  inv : e.inv < W64

/-- Registers hold words. -/
def Words64 (s : State) : Prop := ∀ r, s.reg r < W64

/-- The operand is a word. -/
def WordOperand : Operand → Prop
  | .imm n => n < W64
  | _ => True

theorem read_lt {e : Env} {s : State} (he : EnvOk e) (hw : Words64 s) {x : Operand} (hx : WordOperand x) :
    read e s x < W64 := by
  cases x with
  | reg r => exact hw r
  | mem p i => cases p <;> simp only [read] <;> first | exact he.a i | exact he.b i | exact he.m i
  | imm n => exact hx
  | inv => exact he.inv

theorem set_words {s : State} (hw : Words64 s) (d : Reg) {v : Nat} (hv : v < W64) : Words64 (s.set d v) := by
  intro r
  by_cases h : r = d
  · rw [h, set_same]; exact hv
  · rw [set_ne _ _ h]; exact hw r

theorem addTo_words {s : State} (hw : Words64 s) (d : Reg) (v k : Nat) : Words64 (s.addTo d v k) :=
  set_words hw d (Nat.mod_lt _ (by norm_num [W64]))

theorem subFrom_words {s : State} (hw : Words64 s) (d : Reg) (v k : Nat) : Words64 (s.subFrom d v k) :=
  set_words hw d (Nat.mod_lt _ (by norm_num [W64]))

/-- Operands of an instruction that are words. -/
def WordInstr : Instr → Prop
  | .mov _ x | .add _ x | .adc _ x | .adcx _ x | .sub _ x | .sbb _ x | .mulx _ _ x | .xor _ x | .or _ x | .and _ x
  | .cmp _ x | .cmovc _ x | .cmove _ x => WordOperand x

theorem exec_words {e : Env} {s : State} (he : EnvOk e) (hw : Words64 s) {i : Instr} (hi : WordInstr i) :
    Words64 (exec e s i) := by
  have h64 : W64 = 2 ^ 64 := rfl
  cases i with
  | mov d x => exact set_words hw d (read_lt he hw hi)
  | add d x => exact addTo_words hw _ _ _
  | adc d x => exact addTo_words hw _ _ _
  | adcx d x => exact addTo_words hw _ _ _
  | sub d x => exact subFrom_words hw _ _ _
  | sbb d x => exact subFrom_words hw _ _ _
  | mulx h l x =>
    have := read_lt he hw hi
    have h1 : s.reg .rdx * read e s x < W64 * W64 := Nat.mul_lt_mul'' (hw _) this
    exact set_words (set_words hw l (Nat.mod_lt _ (by norm_num [W64]))) h (Nat.div_lt_of_lt_mul h1)
  | xor d x => exact set_words hw d (by have a := hw d; have b := read_lt he hw hi; rw [h64] at *; exact Nat.xor_lt_two_pow a b)
  | or d x => exact set_words hw d (by have a := hw d; have b := read_lt he hw hi; rw [h64] at *; exact Nat.or_lt_two_pow a b)
  | and d x => exact set_words hw d (lt_of_le_of_lt Nat.and_le_left (hw d))
  | cmp d x => exact hw
  | cmovc d x =>
    simp only [exec]
    split
    · exact set_words hw d (read_lt he hw hi)
    · exact hw
  | cmove d x =>
    simp only [exec]
    split
    · exact set_words hw d (read_lt he hw hi)
    · exact hw

theorem run_words {e : Env} (he : EnvOk e) {l : List Instr} (hl : ∀ i ∈ l, WordInstr i) {s : State} (hw : Words64 s) :
    Words64 (run e l s) := by
  induction l generalizing s with
  | nil => exact hw
  | cons i l ih =>
    exact ih (fun j hj => hl j (List.mem_cons_of_mem _ hj)) (exec_words he hw (hl i (List.mem_cons_self ..)))

/-- Multiply the word `x` with `rdx` and add it to three registers. -/
def mac (hi lo : Reg) (x : Operand) (d0 d1 d2 : Reg) : List Instr :=
  [.mulx hi lo x, .add d0 (.reg lo), .adcx d1 (.reg hi), .adc d2 (.imm 0)]

theorem mac_block {e : Env} {s : State} {hi lo d0 d1 d2 : Reg} {x : Operand} {v : Nat} (hw : Words64 s)
    (hn : [hi, lo, d0, d1, d2, .rdx].Nodup) (hx : read e s x = v) (hv : v < W64)
    (hk : keepsCarries e (mac hi lo x d0 d1 d2) s = true) :
    (run e (mac hi lo x d0 d1 d2) s).reg d0 + W64 * ((run e (mac hi lo x d0 d1 d2) s).reg d1 +
        W64 * (run e (mac hi lo x d0 d1 d2) s).reg d2) =
      s.reg d0 + W64 * (s.reg d1 + W64 * s.reg d2) + s.reg .rdx * v ∧
    ∀ r, r ∉ [hi, lo, d0, d1, d2] → (run e (mac hi lo x d0 d1 d2) s).reg r = s.reg r := by
  simp only [List.nodup_cons, List.mem_cons, List.not_mem_nil, or_false, not_or, not_false_eq_true, List.nodup_nil,
    and_true] at hn
  obtain ⟨⟨n1, n2, n3, n4, n5⟩, ⟨n6, n7, n8, n9⟩, ⟨n10, n11, n12⟩, ⟨n13, n14⟩, n15⟩ := hn
  simp only [mac, run_cons, run_nil]
  simp only [mac, keepsCarries, dropsCarry, Bool.false_and, Bool.not_false, Bool.true_and, Bool.and_true,
    Bool.not_eq_true'] at hk
  have hb : s.reg .rdx * v ≤ (W64 - 1) * (W64 - 1) := Nat.mul_le_mul (by have := hw .rdx; omega) (by omega)
  have hmd := Nat.mod_add_div (s.reg .rdx * v) W64
  have hml : s.reg .rdx * v % W64 < W64 := Nat.mod_lt _ (by norm_num [W64])
  have hdl : s.reg .rdx * v / W64 < W64 := by
    rw [Nat.div_lt_iff_lt_mul (by norm_num [W64])]
    refine lt_of_le_of_lt hb (by norm_num [W64])
  generalize hs1 : exec e s (.mulx hi lo x) = s1 at *
  have f1 : ∀ r, r ≠ hi → r ≠ lo → s1.reg r = s.reg r := by
    intro r h1 h2
    rw [← hs1]; simp only [exec]; rw [set_ne _ _ h1, set_ne _ _ h2]
  have l1 : s1.reg lo = s.reg .rdx * v % W64 := by
    rw [← hs1]; simp only [exec]; rw [set_ne _ _ (Ne.symm n1), set_same, hx]
  have g1 : s1.reg hi = s.reg .rdx * v / W64 := by
    rw [← hs1]; simp only [exec]; rw [set_same, hx]
  clear hs1
  generalize s.reg .rdx * v % W64 = L at *
  generalize s.reg .rdx * v / W64 = H at *
  have e2 := addTo_spec s1 d0 (s1.reg lo) 0 (by rw [f1 d0 (Ne.symm n2) (Ne.symm n6)]; exact hw _) (by rw [l1]; exact hml)
    (by omega)
  have fr2 : ∀ r, r ≠ d0 → (exec e s1 (.add d0 (.reg lo))).reg r = s1.reg r := fun r h => addTo_ne _ _ _ h
  change (exec e s1 (.add d0 (.reg lo))).reg d0 + W64 * (exec e s1 (.add d0 (.reg lo))).cf.toNat = _ ∧
    (exec e s1 (.add d0 (.reg lo))).reg d0 < W64 at e2
  generalize exec e s1 (.add d0 (.reg lo)) = s2 at *
  have e3 := addTo_spec s2 d1 (s2.reg hi) s2.cf.toNat
    (by rw [fr2 d1 (Ne.symm n10), f1 d1 (Ne.symm n3) (Ne.symm n7)]; exact hw _)
    (by rw [fr2 hi n2, g1]; exact hdl) (toNat_le _)
  have fr3 : ∀ r, r ≠ d1 → (exec e s2 (.adcx d1 (.reg hi))).reg r = s2.reg r := fun r h => addTo_ne _ _ _ h
  change (exec e s2 (.adcx d1 (.reg hi))).reg d1 + W64 * (exec e s2 (.adcx d1 (.reg hi))).cf.toNat = _ ∧
    (exec e s2 (.adcx d1 (.reg hi))).reg d1 < W64 at e3
  generalize exec e s2 (.adcx d1 (.reg hi)) = s3 at *
  have e4 := addTo_spec s3 d2 0 s3.cf.toNat
    (by rw [fr3 d2 (Ne.symm n13), fr2 d2 (Ne.symm n11), f1 d2 (Ne.symm n4) (Ne.symm n8)]; exact hw _)
    (by norm_num [W64]) (toNat_le _)
  have fr4 : ∀ r, r ≠ d2 → (exec e s3 (.adc d2 (.imm 0))).reg r = s3.reg r := fun r h => addTo_ne _ _ _ h
  change (exec e s3 (.adc d2 (.imm 0))).reg d2 + W64 * (exec e s3 (.adc d2 (.imm 0))).cf.toNat = _ ∧
    (exec e s3 (.adc d2 (.imm 0))).reg d2 < W64 at e4
  generalize exec e s3 (.adc d2 (.imm 0)) = s4 at *
  rw [hk] at e4
  simp only [Bool.toNat_false, Nat.mul_zero, Nat.add_zero] at e4
  constructor
  · rw [fr4 d0 n11, fr3 d0 n10, fr4 d1 n13]
    have h4 := e4.1
    rw [fr3 d2 (Ne.symm n13), fr2 d2 (Ne.symm n11), f1 d2 (Ne.symm n4) (Ne.symm n8)] at h4
    have h3 := e3.1
    rw [fr2 d1 (Ne.symm n10), f1 d1 (Ne.symm n3) (Ne.symm n7), fr2 hi n2, g1] at h3
    have h2 := e2.1
    rw [f1 d0 (Ne.symm n2) (Ne.symm n6), l1] at h2
    rw [h4, ← hmd]
    simp only [W64] at *
    omega
  · intro r hr
    simp only [List.mem_cons, List.not_mem_nil, or_false, not_or] at hr
    obtain ⟨q1, q2, q3, q4, q5⟩ := hr
    rw [fr4 r q5, fr3 r q4, fr2 r q3, f1 r q1 q2]

/-- The values of `rdx` and `r8` to `r15`. -/
structure Regs (s : State) (dx a0 a1 a2 a3 a4 a5 a6 a7 : Nat) : Prop where
  rdx : s.reg .rdx = dx
  r8 : s.reg .r8 = a0
  r9 : s.reg .r9 = a1
  r10 : s.reg .r10 = a2
  r11 : s.reg .r11 = a3
  r12 : s.reg .r12 = a4
  r13 : s.reg .r13 = a5
  r14 : s.reg .r14 = a6
  r15 : s.reg .r15 = a7


theorem mac0 {e : Env} {s : State} {dx a0 a1 a2 a3 a4 a5 a6 a7 v : Nat} {hi lo : Reg} {x : Operand} (hw : Words64 s)
    (hr : Regs s dx a0 a1 a2 a3 a4 a5 a6 a7) (hhl : (hi = .rcx ∧ lo = .rax) ∨ (hi = .rax ∧ lo = .rcx)) (hx : read e s x = v) (hv : v < W64)
    (hk : keepsCarries e (mac hi lo x .r8 .r9 .r10) s = true) :
    ∃ x' y z, Regs (run e (mac hi lo x .r8 .r9 .r10) s) dx x' y z a3 a4 a5 a6 a7 ∧
      x' + W64 * (y + W64 * z) = a0 + W64 * (a1 + W64 * a2) + dx * v := by
  obtain ⟨rdx, r8, r9, r10, r11, r12, r13, r14, r15⟩ := hr
  have hn : [hi, lo, .r8, .r9, .r10, .rdx].Nodup := by rcases hhl with ⟨rfl, rfl⟩ | ⟨rfl, rfl⟩ <;> decide
  obtain ⟨h1, h2⟩ := mac_block hw hn hx hv hk
  have fr : ∀ r, r ≠ .rcx → r ≠ .rax → r ≠ .r8 → r ≠ .r9 → r ≠ .r10 →
      (run e (mac hi lo x .r8 .r9 .r10) s).reg r = s.reg r := by
    intro r n1 n2 n3 n4 n5
    apply h2
    rcases hhl with ⟨rfl, rfl⟩ | ⟨rfl, rfl⟩ <;> simp [n1, n2, n3, n4, n5]
  rw [r8, r9, r10, rdx] at h1
  exact ⟨_, _, _, ⟨(fr _ (by decide) (by decide) (by decide) (by decide) (by decide)).trans rdx, rfl, rfl, rfl, (fr _ (by decide) (by decide) (by decide) (by decide) (by decide)).trans r11, (fr _ (by decide) (by decide) (by decide) (by decide) (by decide)).trans r12, (fr _ (by decide) (by decide) (by decide) (by decide) (by decide)).trans r13, (fr _ (by decide) (by decide) (by decide) (by decide) (by decide)).trans r14, (fr _ (by decide) (by decide) (by decide) (by decide) (by decide)).trans r15⟩, h1⟩

theorem mac1 {e : Env} {s : State} {dx a0 a1 a2 a3 a4 a5 a6 a7 v : Nat} {hi lo : Reg} {x : Operand} (hw : Words64 s)
    (hr : Regs s dx a0 a1 a2 a3 a4 a5 a6 a7) (hhl : (hi = .rcx ∧ lo = .rax) ∨ (hi = .rax ∧ lo = .rcx)) (hx : read e s x = v) (hv : v < W64)
    (hk : keepsCarries e (mac hi lo x .r9 .r10 .r11) s = true) :
    ∃ x' y z, Regs (run e (mac hi lo x .r9 .r10 .r11) s) dx a0 x' y z a4 a5 a6 a7 ∧
      x' + W64 * (y + W64 * z) = a1 + W64 * (a2 + W64 * a3) + dx * v := by
  obtain ⟨rdx, r8, r9, r10, r11, r12, r13, r14, r15⟩ := hr
  have hn : [hi, lo, .r9, .r10, .r11, .rdx].Nodup := by rcases hhl with ⟨rfl, rfl⟩ | ⟨rfl, rfl⟩ <;> decide
  obtain ⟨h1, h2⟩ := mac_block hw hn hx hv hk
  have fr : ∀ r, r ≠ .rcx → r ≠ .rax → r ≠ .r9 → r ≠ .r10 → r ≠ .r11 →
      (run e (mac hi lo x .r9 .r10 .r11) s).reg r = s.reg r := by
    intro r n1 n2 n3 n4 n5
    apply h2
    rcases hhl with ⟨rfl, rfl⟩ | ⟨rfl, rfl⟩ <;> simp [n1, n2, n3, n4, n5]
  rw [r9, r10, r11, rdx] at h1
  exact ⟨_, _, _, ⟨(fr _ (by decide) (by decide) (by decide) (by decide) (by decide)).trans rdx, (fr _ (by decide) (by decide) (by decide) (by decide) (by decide)).trans r8, rfl, rfl, rfl, (fr _ (by decide) (by decide) (by decide) (by decide) (by decide)).trans r12, (fr _ (by decide) (by decide) (by decide) (by decide) (by decide)).trans r13, (fr _ (by decide) (by decide) (by decide) (by decide) (by decide)).trans r14, (fr _ (by decide) (by decide) (by decide) (by decide) (by decide)).trans r15⟩, h1⟩

theorem mac2 {e : Env} {s : State} {dx a0 a1 a2 a3 a4 a5 a6 a7 v : Nat} {hi lo : Reg} {x : Operand} (hw : Words64 s)
    (hr : Regs s dx a0 a1 a2 a3 a4 a5 a6 a7) (hhl : (hi = .rcx ∧ lo = .rax) ∨ (hi = .rax ∧ lo = .rcx)) (hx : read e s x = v) (hv : v < W64)
    (hk : keepsCarries e (mac hi lo x .r10 .r11 .r12) s = true) :
    ∃ x' y z, Regs (run e (mac hi lo x .r10 .r11 .r12) s) dx a0 a1 x' y z a5 a6 a7 ∧
      x' + W64 * (y + W64 * z) = a2 + W64 * (a3 + W64 * a4) + dx * v := by
  obtain ⟨rdx, r8, r9, r10, r11, r12, r13, r14, r15⟩ := hr
  have hn : [hi, lo, .r10, .r11, .r12, .rdx].Nodup := by rcases hhl with ⟨rfl, rfl⟩ | ⟨rfl, rfl⟩ <;> decide
  obtain ⟨h1, h2⟩ := mac_block hw hn hx hv hk
  have fr : ∀ r, r ≠ .rcx → r ≠ .rax → r ≠ .r10 → r ≠ .r11 → r ≠ .r12 →
      (run e (mac hi lo x .r10 .r11 .r12) s).reg r = s.reg r := by
    intro r n1 n2 n3 n4 n5
    apply h2
    rcases hhl with ⟨rfl, rfl⟩ | ⟨rfl, rfl⟩ <;> simp [n1, n2, n3, n4, n5]
  rw [r10, r11, r12, rdx] at h1
  exact ⟨_, _, _, ⟨(fr _ (by decide) (by decide) (by decide) (by decide) (by decide)).trans rdx, (fr _ (by decide) (by decide) (by decide) (by decide) (by decide)).trans r8, (fr _ (by decide) (by decide) (by decide) (by decide) (by decide)).trans r9, rfl, rfl, rfl, (fr _ (by decide) (by decide) (by decide) (by decide) (by decide)).trans r13, (fr _ (by decide) (by decide) (by decide) (by decide) (by decide)).trans r14, (fr _ (by decide) (by decide) (by decide) (by decide) (by decide)).trans r15⟩, h1⟩

theorem mac3 {e : Env} {s : State} {dx a0 a1 a2 a3 a4 a5 a6 a7 v : Nat} {hi lo : Reg} {x : Operand} (hw : Words64 s)
    (hr : Regs s dx a0 a1 a2 a3 a4 a5 a6 a7) (hhl : (hi = .rcx ∧ lo = .rax) ∨ (hi = .rax ∧ lo = .rcx)) (hx : read e s x = v) (hv : v < W64)
    (hk : keepsCarries e (mac hi lo x .r11 .r12 .r13) s = true) :
    ∃ x' y z, Regs (run e (mac hi lo x .r11 .r12 .r13) s) dx a0 a1 a2 x' y z a6 a7 ∧
      x' + W64 * (y + W64 * z) = a3 + W64 * (a4 + W64 * a5) + dx * v := by
  obtain ⟨rdx, r8, r9, r10, r11, r12, r13, r14, r15⟩ := hr
  have hn : [hi, lo, .r11, .r12, .r13, .rdx].Nodup := by rcases hhl with ⟨rfl, rfl⟩ | ⟨rfl, rfl⟩ <;> decide
  obtain ⟨h1, h2⟩ := mac_block hw hn hx hv hk
  have fr : ∀ r, r ≠ .rcx → r ≠ .rax → r ≠ .r11 → r ≠ .r12 → r ≠ .r13 →
      (run e (mac hi lo x .r11 .r12 .r13) s).reg r = s.reg r := by
    intro r n1 n2 n3 n4 n5
    apply h2
    rcases hhl with ⟨rfl, rfl⟩ | ⟨rfl, rfl⟩ <;> simp [n1, n2, n3, n4, n5]
  rw [r11, r12, r13, rdx] at h1
  exact ⟨_, _, _, ⟨(fr _ (by decide) (by decide) (by decide) (by decide) (by decide)).trans rdx, (fr _ (by decide) (by decide) (by decide) (by decide) (by decide)).trans r8, (fr _ (by decide) (by decide) (by decide) (by decide) (by decide)).trans r9, (fr _ (by decide) (by decide) (by decide) (by decide) (by decide)).trans r10, rfl, rfl, rfl, (fr _ (by decide) (by decide) (by decide) (by decide) (by decide)).trans r14, (fr _ (by decide) (by decide) (by decide) (by decide) (by decide)).trans r15⟩, h1⟩

theorem mac4 {e : Env} {s : State} {dx a0 a1 a2 a3 a4 a5 a6 a7 v : Nat} {hi lo : Reg} {x : Operand} (hw : Words64 s)
    (hr : Regs s dx a0 a1 a2 a3 a4 a5 a6 a7) (hhl : (hi = .rcx ∧ lo = .rax) ∨ (hi = .rax ∧ lo = .rcx)) (hx : read e s x = v) (hv : v < W64)
    (hk : keepsCarries e (mac hi lo x .r12 .r13 .r14) s = true) :
    ∃ x' y z, Regs (run e (mac hi lo x .r12 .r13 .r14) s) dx a0 a1 a2 a3 x' y z a7 ∧
      x' + W64 * (y + W64 * z) = a4 + W64 * (a5 + W64 * a6) + dx * v := by
  obtain ⟨rdx, r8, r9, r10, r11, r12, r13, r14, r15⟩ := hr
  have hn : [hi, lo, .r12, .r13, .r14, .rdx].Nodup := by rcases hhl with ⟨rfl, rfl⟩ | ⟨rfl, rfl⟩ <;> decide
  obtain ⟨h1, h2⟩ := mac_block hw hn hx hv hk
  have fr : ∀ r, r ≠ .rcx → r ≠ .rax → r ≠ .r12 → r ≠ .r13 → r ≠ .r14 →
      (run e (mac hi lo x .r12 .r13 .r14) s).reg r = s.reg r := by
    intro r n1 n2 n3 n4 n5
    apply h2
    rcases hhl with ⟨rfl, rfl⟩ | ⟨rfl, rfl⟩ <;> simp [n1, n2, n3, n4, n5]
  rw [r12, r13, r14, rdx] at h1
  exact ⟨_, _, _, ⟨(fr _ (by decide) (by decide) (by decide) (by decide) (by decide)).trans rdx, (fr _ (by decide) (by decide) (by decide) (by decide) (by decide)).trans r8, (fr _ (by decide) (by decide) (by decide) (by decide) (by decide)).trans r9, (fr _ (by decide) (by decide) (by decide) (by decide) (by decide)).trans r10, (fr _ (by decide) (by decide) (by decide) (by decide) (by decide)).trans r11, rfl, rfl, rfl, (fr _ (by decide) (by decide) (by decide) (by decide) (by decide)).trans r15⟩, h1⟩

theorem mac5 {e : Env} {s : State} {dx a0 a1 a2 a3 a4 a5 a6 a7 v : Nat} {hi lo : Reg} {x : Operand} (hw : Words64 s)
    (hr : Regs s dx a0 a1 a2 a3 a4 a5 a6 a7) (hhl : (hi = .rcx ∧ lo = .rax) ∨ (hi = .rax ∧ lo = .rcx)) (hx : read e s x = v) (hv : v < W64)
    (hk : keepsCarries e (mac hi lo x .r13 .r14 .r15) s = true) :
    ∃ x' y z, Regs (run e (mac hi lo x .r13 .r14 .r15) s) dx a0 a1 a2 a3 a4 x' y z ∧
      x' + W64 * (y + W64 * z) = a5 + W64 * (a6 + W64 * a7) + dx * v := by
  obtain ⟨rdx, r8, r9, r10, r11, r12, r13, r14, r15⟩ := hr
  have hn : [hi, lo, .r13, .r14, .r15, .rdx].Nodup := by rcases hhl with ⟨rfl, rfl⟩ | ⟨rfl, rfl⟩ <;> decide
  obtain ⟨h1, h2⟩ := mac_block hw hn hx hv hk
  have fr : ∀ r, r ≠ .rcx → r ≠ .rax → r ≠ .r13 → r ≠ .r14 → r ≠ .r15 →
      (run e (mac hi lo x .r13 .r14 .r15) s).reg r = s.reg r := by
    intro r n1 n2 n3 n4 n5
    apply h2
    rcases hhl with ⟨rfl, rfl⟩ | ⟨rfl, rfl⟩ <;> simp [n1, n2, n3, n4, n5]
  rw [r13, r14, r15, rdx] at h1
  exact ⟨_, _, _, ⟨(fr _ (by decide) (by decide) (by decide) (by decide) (by decide)).trans rdx, (fr _ (by decide) (by decide) (by decide) (by decide) (by decide)).trans r8, (fr _ (by decide) (by decide) (by decide) (by decide) (by decide)).trans r9, (fr _ (by decide) (by decide) (by decide) (by decide) (by decide)).trans r10, (fr _ (by decide) (by decide) (by decide) (by decide) (by decide)).trans r11, (fr _ (by decide) (by decide) (by decide) (by decide) (by decide)).trans r12, rfl, rfl, rfl⟩, h1⟩

end Verif.Asm
