import Verif.Lemmas.AsmProduct
import Verif.Lemmas.FieldValue

/-! Helper lemmas for the assembly: the reduction and the final subtractions. -/

namespace Verif.Asm

theorem lowest {m0 inv a x u v : Nat} (hinv : m0 * inv % W64 = W64 - 1) (hx : x < W64)
    (h : x + W64 * u = a + W64 * v + inv * a % W64 * m0) : x = 0 := by
  have h1 : (x + W64 * u) % W64 = x := by rw [Nat.add_mul_mod_self_left, Nat.mod_eq_of_lt hx]
  rw [h, Nat.add_right_comm, Nat.add_mul_mod_self_left, Nat.add_mod, Nat.mul_mod, Nat.mod_mod, ← Nat.mul_mod, ← Nat.add_mod] at h1
  have h2 : (a + inv * a * m0) % W64 = (a * (1 + m0 * inv)) % W64 := by congr 1; ring
  have h3 : (1 + m0 * inv) % W64 = 0 := by
    rw [Nat.add_mod, hinv]
    norm_num [W64]
  rw [h2, Nat.mul_mod, h3, Nat.mul_zero, Nat.zero_mod] at h1
  exact h1.symm

/-- The factor of a round. -/
def factor (d : Reg) : List Instr := [.mov .rdx .inv, .mulx .rax .rdx (.reg d)]

theorem factor_words {e : Env} (he : EnvOk e) {s : State} (hw : Words64 s) (d : Reg) : Words64 (run e (factor d) s) := by
  apply run_words he _ hw
  intro i hi
  simp only [factor, List.mem_cons, List.not_mem_nil, or_false] at hi
  rcases hi with rfl | rfl <;> trivial

theorem factor_regs {e : Env} {s : State} {dx a0 a1 a2 a3 a4 a5 a6 a7 a : Nat} (h : Regs s dx a0 a1 a2 a3 a4 a5 a6 a7) {d : Reg}
    (hd : s.reg d = a) (hn : d ∈ [Reg.r8, .r9, .r10, .r11]) : Regs (run e (factor d) s) (e.inv * a % W64) a0 a1 a2 a3 a4 a5 a6 a7 := by
  obtain ⟨rdx, r8, r9, r10, r11, r12, r13, r14, r15⟩ := h
  subst hd
  simp only [List.mem_cons, List.not_mem_nil, or_false] at hn
  rcases hn with rfl | rfl | rfl | rfl
  all_goals exact ⟨rfl, r8, r9, r10, r11, r12, r13, r14, r15⟩

/-- The four rounds. -/
def rounds : List Instr :=
  factor .r8 ++ (mac .rcx .rax (.mem .m 0) .r8 .r9 .r10 ++ (mac .rcx .rax (.mem .m 1) .r9 .r10 .r11 ++
    (mac .rcx .rax (.mem .m 2) .r10 .r11 .r12 ++ (mac .rcx .rax (.mem .m 3) .r11 .r12 .r13 ++
  (factor .r9 ++ (mac .rax .rcx (.mem .m 0) .r9 .r10 .r11 ++ (mac .rax .rcx (.mem .m 1) .r10 .r11 .r12 ++
    (mac .rax .rcx (.mem .m 2) .r11 .r12 .r13 ++ (mac .rax .rcx (.mem .m 3) .r12 .r13 .r14 ++
  (factor .r10 ++ (mac .rax .rcx (.mem .m 0) .r10 .r11 .r12 ++ (mac .rax .rcx (.mem .m 1) .r11 .r12 .r13 ++
    (mac .rax .rcx (.mem .m 2) .r12 .r13 .r14 ++ (mac .rax .rcx (.mem .m 3) .r13 .r14 .r15 ++
  (factor .r11 ++ (mac .rax .rcx (.mem .m 0) .r11 .r12 .r13 ++ (mac .rax .rcx (.mem .m 1) .r12 .r13 .r14 ++
    (mac .rax .rcx (.mem .m 2) .r13 .r14 .r15 ++
    [.mulx .rax .rcx (.mem .m 3), .add .r14 (.reg .rcx), .adcx .r15 (.reg .rax)]))))))))))))))))))

theorem rounds_spec {e : Env} {s : State} {dx t0 t1 t2 t3 t4 t5 t6 t7 m0 m1 m2 m3 : Nat} (he : EnvOk e) (hw : Words64 s)
    (h : Regs s dx t0 t1 t2 t3 t4 t5 t6 t7) (hm0 : e.m 0 = m0) (hm1 : e.m 1 = m1) (hm2 : e.m 2 = m2) (hm3 : e.m 3 = m3)
    (hinv : m0 * e.inv % W64 = W64 - 1) (hk : keepsCarries e rounds s = true) :
    ∃ k c dx' z0 z1 z2 z3, k < W64 ^ 4 ∧ Regs (run e rounds s) dx' 0 0 0 0 z0 z1 z2 z3 ∧
      W64 ^ 4 * (z0 + W64 * (z1 + W64 * (z2 + W64 * (z3 + W64 * c)))) =
        t0 + W64 * (t1 + W64 * (t2 + W64 * (t3 + W64 * (t4 + W64 * (t5 + W64 * (t6 + W64 * t7)))))) +
          k * (m0 + W64 * (m1 + W64 * (m2 + W64 * m3))) := by
  have n0 : m0 < W64 := hm0 ▸ he.m 0
  have n1 : m1 < W64 := hm1 ▸ he.m 1
  have n2 : m2 < W64 := hm2 ▸ he.m 2
  have n3 : m3 < W64 := hm3 ▸ he.m 3
  have hmod : ∀ x, x % W64 < W64 := fun x => Nat.mod_lt _ (by norm_num [W64])
  simp only [rounds, keepsCarries_append, Bool.and_eq_true] at hk
  simp only [rounds, run_append]
  obtain ⟨-, h1, h2, h3, h4, -, h5, h6, h7, h8, -, h9, h10, h11, h12, -, h13, h14, h15, -⟩ := hk
  have hl : (Reg.rcx = Reg.rcx ∧ Reg.rax = Reg.rax) ∨ (Reg.rcx = Reg.rax ∧ Reg.rax = Reg.rcx) := .inl ⟨rfl, rfl⟩
  have hl' : (Reg.rax = Reg.rcx ∧ Reg.rcx = Reg.rax) ∨ (Reg.rax = Reg.rax ∧ Reg.rcx = Reg.rcx) := .inr ⟨rfl, rfl⟩
  -- round 1
  have g := factor_regs (e := e) h h.r8 (by simp)
  replace hw := factor_words he hw .r8
  have b0 := hmod (e.inv * t0)
  generalize run e (factor .r8) s = s0 at *
  obtain ⟨u0, u1, u2, g, e1⟩ := mac0 (e := e) (x := .mem .m 0) hw g hl hm0 n0 h1
  replace hw := mac_words he hw .rcx .rax .r8 .r9 .r10 (x := .mem .m 0) trivial
  generalize run e (mac .rcx .rax (.mem .m 0) .r8 .r9 .r10) s0 = s1 at *
  obtain rfl := lowest hinv (g.r8 ▸ hw .r8) e1
  obtain ⟨u3, u4, u5, g, e2⟩ := mac1 (e := e) (x := .mem .m 1) hw g hl hm1 n1 h2
  replace hw := mac_words he hw .rcx .rax .r9 .r10 .r11 (x := .mem .m 1) trivial
  generalize run e (mac .rcx .rax (.mem .m 1) .r9 .r10 .r11) s1 = s2 at *
  obtain ⟨u6, u7, u8, g, e3⟩ := mac2 (e := e) (x := .mem .m 2) hw g hl hm2 n2 h3
  replace hw := mac_words he hw .rcx .rax .r10 .r11 .r12 (x := .mem .m 2) trivial
  generalize run e (mac .rcx .rax (.mem .m 2) .r10 .r11 .r12) s2 = s3 at *
  obtain ⟨u9, u10, u11, g, e4⟩ := mac3 (e := e) (x := .mem .m 3) hw g hl hm3 n3 h4
  replace hw := mac_words he hw .rcx .rax .r11 .r12 .r13 (x := .mem .m 3) trivial
  generalize run e (mac .rcx .rax (.mem .m 3) .r11 .r12 .r13) s3 = s4 at *
  -- round 2
  replace g := factor_regs (e := e) g g.r9 (by simp)
  replace hw := factor_words he hw .r9
  have b1 := hmod (e.inv * u3)
  generalize run e (factor .r9) s4 = s5 at *
  obtain ⟨v0, v1, v2, g, e5⟩ := mac1 (e := e) (x := .mem .m 0) hw g hl' hm0 n0 h5
  replace hw := mac_words he hw .rax .rcx .r9 .r10 .r11 (x := .mem .m 0) trivial
  generalize run e (mac .rax .rcx (.mem .m 0) .r9 .r10 .r11) s5 = s6 at *
  obtain rfl := lowest hinv (g.r9 ▸ hw .r9) e5
  obtain ⟨v3, v4, v5, g, e6⟩ := mac2 (e := e) (x := .mem .m 1) hw g hl' hm1 n1 h6
  replace hw := mac_words he hw .rax .rcx .r10 .r11 .r12 (x := .mem .m 1) trivial
  generalize run e (mac .rax .rcx (.mem .m 1) .r10 .r11 .r12) s6 = s7 at *
  obtain ⟨v6, v7, v8, g, e7⟩ := mac3 (e := e) (x := .mem .m 2) hw g hl' hm2 n2 h7
  replace hw := mac_words he hw .rax .rcx .r11 .r12 .r13 (x := .mem .m 2) trivial
  generalize run e (mac .rax .rcx (.mem .m 2) .r11 .r12 .r13) s7 = s8 at *
  obtain ⟨v9, v10, v11, g, e8⟩ := mac4 (e := e) (x := .mem .m 3) hw g hl' hm3 n3 h8
  replace hw := mac_words he hw .rax .rcx .r12 .r13 .r14 (x := .mem .m 3) trivial
  generalize run e (mac .rax .rcx (.mem .m 3) .r12 .r13 .r14) s8 = s9 at *
  -- round 3
  replace g := factor_regs (e := e) g g.r10 (by simp)
  replace hw := factor_words he hw .r10
  have b2 := hmod (e.inv * v3)
  generalize run e (factor .r10) s9 = s10 at *
  obtain ⟨w0, w1, w2, g, e9⟩ := mac2 (e := e) (x := .mem .m 0) hw g hl' hm0 n0 h9
  replace hw := mac_words he hw .rax .rcx .r10 .r11 .r12 (x := .mem .m 0) trivial
  generalize run e (mac .rax .rcx (.mem .m 0) .r10 .r11 .r12) s10 = s11 at *
  obtain rfl := lowest hinv (g.r10 ▸ hw .r10) e9
  obtain ⟨w3, w4, w5, g, e10⟩ := mac3 (e := e) (x := .mem .m 1) hw g hl' hm1 n1 h10
  replace hw := mac_words he hw .rax .rcx .r11 .r12 .r13 (x := .mem .m 1) trivial
  generalize run e (mac .rax .rcx (.mem .m 1) .r11 .r12 .r13) s11 = s12 at *
  obtain ⟨w6, w7, w8, g, e11⟩ := mac4 (e := e) (x := .mem .m 2) hw g hl' hm2 n2 h11
  replace hw := mac_words he hw .rax .rcx .r12 .r13 .r14 (x := .mem .m 2) trivial
  generalize run e (mac .rax .rcx (.mem .m 2) .r12 .r13 .r14) s12 = s13 at *
  obtain ⟨w9, w10, w11, g, e12⟩ := mac5 (e := e) (x := .mem .m 3) hw g hl' hm3 n3 h12
  replace hw := mac_words he hw .rax .rcx .r13 .r14 .r15 (x := .mem .m 3) trivial
  generalize run e (mac .rax .rcx (.mem .m 3) .r13 .r14 .r15) s13 = s14 at *
  -- round 4
  replace g := factor_regs (e := e) g g.r11 (by simp)
  replace hw := factor_words he hw .r11
  have b3 := hmod (e.inv * w3)
  generalize run e (factor .r11) s14 = s15 at *
  obtain ⟨x0, x1, x2, g, e13⟩ := mac3 (e := e) (x := .mem .m 0) hw g hl' hm0 n0 h13
  replace hw := mac_words he hw .rax .rcx .r11 .r12 .r13 (x := .mem .m 0) trivial
  generalize run e (mac .rax .rcx (.mem .m 0) .r11 .r12 .r13) s15 = s16 at *
  obtain rfl := lowest hinv (g.r11 ▸ hw .r11) e13
  obtain ⟨x3, x4, x5, g, e14⟩ := mac4 (e := e) (x := .mem .m 1) hw g hl' hm1 n1 h14
  replace hw := mac_words he hw .rax .rcx .r12 .r13 .r14 (x := .mem .m 1) trivial
  generalize run e (mac .rax .rcx (.mem .m 1) .r12 .r13 .r14) s16 = s17 at *
  obtain ⟨x6, x7, x8, g, e15⟩ := mac5 (e := e) (x := .mem .m 2) hw g hl' hm2 n2 h15
  replace hw := mac_words he hw .rax .rcx .r13 .r14 .r15 (x := .mem .m 2) trivial
  generalize run e (mac .rax .rcx (.mem .m 2) .r13 .r14 .r15) s17 = s18 at *
  obtain ⟨y, z, c, g, e16⟩ := top (e := e) (x := .mem .m 3) (.adcx .r15 (.reg .rax)) hw g hm3 n3 (.inr ⟨rfl, rfl, rfl⟩)
  refine ⟨e.inv * t0 % W64 + W64 * (e.inv * u3 % W64 + W64 * (e.inv * v3 % W64 + W64 * (e.inv * w3 % W64))), c, _, _, _, _, _, ?_, g, ?_⟩
  · generalize e.inv * t0 % W64 = p0 at *
    generalize e.inv * u3 % W64 = p1 at *
    generalize e.inv * v3 % W64 = p2 at *
    generalize e.inv * w3 % W64 = p3 at *
    clear * - b0 b1 b2 b3
    simp only [W64] at *
    omega
  · generalize e.inv * t0 % W64 = p0 at *
    generalize e.inv * u3 % W64 = p1 at *
    generalize e.inv * v3 % W64 = p2 at *
    generalize e.inv * w3 % W64 = p3 at *
    clear h1 h2 h3 h4 h5 h6 h7 h8 h9 h10 h11 h12 h13 h14 h15 hw g hl hl' hmod hm0 hm1 hm2 hm3 hinv h
    zify at *
    linear_combination e1 + (W64 : ℤ) * (e2 + e5) + (W64 : ℤ) ^ 2 * (e3 + e6 + e9) + (W64 : ℤ) ^ 3 * (e4 + e7 + e10 + e13) +
      (W64 : ℤ) ^ 4 * (e8 + e11 + e14) + (W64 : ℤ) ^ 5 * (e12 + e15) + (W64 : ℤ) ^ 6 * e16

end Verif.Asm
