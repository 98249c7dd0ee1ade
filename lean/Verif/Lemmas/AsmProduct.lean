import Verif.Lemmas.AsmBlocks

/-! Helper lemmas for the assembly: the product before reduction. -/

namespace Verif.Asm

theorem carry_eq {x : Nat} (hx : x < 2 * W64) : x % W64 + W64 * (decide (W64 ≤ x)).toNat = x := by
  by_cases h : W64 ≤ x
  · rw [decide_eq_true h]
    simp only [W64, Bool.toNat_true] at *
    omega
  · rw [decide_eq_false h]
    simp only [W64, Bool.toNat_false] at *
    omega

theorem prod_bound {x y : Nat} (hx : x < W64) (hy : y < W64) :
    ∃ l h, x * y % W64 = l ∧ x * y / W64 = h ∧ x * y = l + W64 * h ∧ l < W64 ∧ h + 2 ≤ W64 := by
  refine ⟨_, _, rfl, rfl, (Nat.mod_add_div _ _).symm, Nat.mod_lt _ (by norm_num [W64]), ?_⟩
  have hb : x * y ≤ (W64 - 1) * (W64 - 1) := Nat.mul_le_mul (by omega) (by omega)
  have : x * y < (W64 - 1) * W64 := lt_of_le_of_lt hb (by norm_num [W64])
  have := (Nat.div_lt_iff_lt_mul (by norm_num [W64])).2 this
  simp only [W64] at *
  omega

/-- The first row: `a0` times the four words. -/
def row0 (A0 : Operand) (p : Ptr) : List Instr :=
  [.mov .rdx A0, .mulx .r9 .r8 (.reg .r13), .mulx .r10 .rax (.reg .r14), .add .r9 (.reg .rax), .mulx .r11 .rax (.reg .r15),
   .adcx .r10 (.reg .rax), .mulx .r12 .rax (.mem p 3), .adcx .r11 (.reg .rax), .adc .r12 (.imm 0)]

theorem row0_spec {e : Env} {s : State} {A0 : Operand} {p : Ptr} {a0 b0 b1 b2 b3 : Nat} (hA : read e s A0 = a0) (h0 : s.reg .r13 = b0)
    (h1 : s.reg .r14 = b1) (h2 : s.reg .r15 = b2) (h3 : ∀ s', read e s' (.mem p 3) = b3) (ha : a0 < W64) (k0 : b0 < W64)
    (k1 : b1 < W64) (k2 : b2 < W64) (k3 : b3 < W64) :
    ∃ x0 x1 x2 x3 x4, Regs (run e (row0 A0 p) s) a0 x0 x1 x2 x3 x4 b0 b1 b2 ∧
      x0 + W64 * (x1 + W64 * (x2 + W64 * (x3 + W64 * x4))) = a0 * (b0 + W64 * (b1 + W64 * (b2 + W64 * b3))) := by
  obtain ⟨l0, g0, q0, q0', p0, z0, w0⟩ := prod_bound ha k0
  obtain ⟨l1, g1, q1, q1', p1, z1, w1⟩ := prod_bound ha k1
  obtain ⟨l2, g2, q2, q2', p2, z2, w2⟩ := prod_bound ha k2
  obtain ⟨l3, g3, q3, q3', p3, z3, w3⟩ := prod_bound ha k3
  have c1 := carry_eq (x := g0 + l1 + 0) (by simp only [W64] at *; omega)
  have t1 := toNat_le (decide (W64 ≤ g0 + l1 + 0))
  have c2 := carry_eq (x := g1 + l2 + (decide (W64 ≤ g0 + l1 + 0)).toNat) (by simp only [W64] at *; omega)
  have t2 := toNat_le (decide (W64 ≤ g1 + l2 + (decide (W64 ≤ g0 + l1 + 0)).toNat))
  have c3 := carry_eq (x := g2 + l3 + (decide (W64 ≤ g1 + l2 + (decide (W64 ≤ g0 + l1 + 0)).toNat)).toNat)
    (by simp only [W64] at *; omega)
  have t3 := toNat_le (decide (W64 ≤ g2 + l3 + (decide (W64 ≤ g1 + l2 + (decide (W64 ≤ g0 + l1 + 0)).toNat)).toNat))
  refine ⟨l0, (g0 + l1 + 0) % W64, (g1 + l2 + (decide (W64 ≤ g0 + l1 + 0)).toNat) % W64,
    (g2 + l3 + (decide (W64 ≤ g1 + l2 + (decide (W64 ≤ g0 + l1 + 0)).toNat)).toNat) % W64,
    (g3 + 0 + (decide (W64 ≤ g2 + l3 + (decide (W64 ≤ g1 + l2 + (decide (W64 ≤ g0 + l1 + 0)).toNat)).toNat)).toNat) % W64,
    ?_, ?_⟩
  · subst q0 q0' q1 q1' q2 q2' q3 q3' hA h0 h1 h2
    rw [← h3 s]
    cases p <;> exact ⟨rfl, rfl, rfl, rfl, rfl, rfl, rfl, rfl, rfl⟩
  · clear q0 q0' q1 q1' q2 q2' q3 q3'
    have e1 : a0 * (b0 + W64 * (b1 + W64 * (b2 + W64 * b3))) =
        a0 * b0 + W64 * (a0 * b1 + W64 * (a0 * b2 + W64 * (a0 * b3))) := by ring
    rw [e1, p0, p1, p2, p3]
    generalize (decide (W64 ≤ g2 + l3 + (decide (W64 ≤ g1 + l2 + (decide (W64 ≤ g0 + l1 + 0)).toNat)).toNat)).toNat = f3 at *
    generalize (decide (W64 ≤ g1 + l2 + (decide (W64 ≤ g0 + l1 + 0)).toNat)).toNat = f2 at *
    generalize (decide (W64 ≤ g0 + l1 + 0)).toNat = f1 at *
    simp only [W64] at *
    omega

theorem mac_words {e : Env} (he : EnvOk e) {s : State} (hw : Words64 s) (hi lo d0 d1 d2 : Reg) {x : Operand} (hx : WordOperand x) :
    Words64 (run e (mac hi lo x d0 d1 d2) s) := by
  apply run_words he _ hw
  intro i hi'
  simp only [mac, List.mem_cons, List.not_mem_nil, or_false] at hi'
  rcases hi' with rfl | rfl | rfl | rfl
  · exact hx
  · trivial
  · trivial
  · show 0 < W64
    norm_num [W64]

theorem movDx {e : Env} {s : State} {dx a0 a1 a2 a3 a4 a5 a6 a7 v : Nat} {A : Operand} (h : Regs s dx a0 a1 a2 a3 a4 a5 a6 a7)
    (hA : read e s A = v) : Regs (exec e s (.mov .rdx A)) v a0 a1 a2 a3 a4 a5 a6 a7 :=
  ⟨hA, h.r8, h.r9, h.r10, h.r11, h.r12, h.r13, h.r14, h.r15⟩

theorem xor13 {e : Env} {s : State} {dx a0 a1 a2 a3 a4 a5 a6 a7 : Nat} (h : Regs s dx a0 a1 a2 a3 a4 a5 a6 a7) :
    Regs (exec e s (.xor .r13 (.reg .r13))) dx a0 a1 a2 a3 a4 0 a6 a7 :=
  ⟨h.rdx, h.r8, h.r9, h.r10, h.r11, h.r12, Nat.xor_self _, h.r14, h.r15⟩

theorem xor14 {e : Env} {s : State} {dx a0 a1 a2 a3 a4 a5 a6 a7 : Nat} (h : Regs s dx a0 a1 a2 a3 a4 a5 a6 a7) :
    Regs (exec e s (.xor .r14 (.reg .r14))) dx a0 a1 a2 a3 a4 a5 0 a7 :=
  ⟨h.rdx, h.r8, h.r9, h.r10, h.r11, h.r12, h.r13, Nat.xor_self _, h.r15⟩

theorem xor15 {e : Env} {s : State} {dx a0 a1 a2 a3 a4 a5 a6 a7 : Nat} (h : Regs s dx a0 a1 a2 a3 a4 a5 a6 a7) :
    Regs (exec e s (.xor .r15 (.reg .r15))) dx a0 a1 a2 a3 a4 a5 a6 0 :=
  ⟨h.rdx, h.r8, h.r9, h.r10, h.r11, h.r12, h.r13, h.r14, Nat.xor_self _⟩

/-- The last product: nothing above. -/
theorem top {e : Env} {s : State} {dx a0 a1 a2 a3 a4 a5 a6 a7 v : Nat} {x : Operand} {hi lo : Reg} (last : Instr) (hw : Words64 s)
    (h : Regs s dx a0 a1 a2 a3 a4 a5 a6 a7) (hx : read e s x = v) (hv : v < W64)
    (hhl : (hi = .rcx ∧ lo = .rax ∧ last = .adc .r15 (.reg .rcx)) ∨ (hi = .rax ∧ lo = .rcx ∧ last = .adcx .r15 (.reg .rax))) :
    ∃ y z c, Regs (run e [.mulx hi lo x, .add .r14 (.reg lo), last] s) dx a0 a1 a2 a3 a4 a5 y z ∧
      y + W64 * (z + W64 * c) = a6 + W64 * a7 + dx * v := by
  have hdx := hw .rdx
  have b6 := hw .r14
  have b7 := hw .r15
  obtain ⟨rdx, r8, r9, r10, r11, r12, r13, r14, r15⟩ := h
  rw [rdx] at hdx
  rw [r14] at b6
  rw [r15] at b7
  obtain ⟨l, g, q, q', p, z1, w1⟩ := prod_bound hdx hv
  have c1 := carry_eq (x := a6 + l + 0) (by simp only [W64] at *; omega)
  have t1 := toNat_le (decide (W64 ≤ a6 + l + 0))
  refine ⟨(a6 + l + 0) % W64, (a7 + g + (decide (W64 ≤ a6 + l + 0)).toNat) % W64,
    (a7 + g + (decide (W64 ≤ a6 + l + 0)).toNat) / W64, ?_, ?_⟩
  · subst q q' r8 r9 r10 r11 r12 r13 r14 r15 hx rdx
    rcases hhl with ⟨rfl, rfl, rfl⟩ | ⟨rfl, rfl, rfl⟩
    · exact ⟨rfl, rfl, rfl, rfl, rfl, rfl, rfl, rfl, rfl⟩
    · exact ⟨rfl, rfl, rfl, rfl, rfl, rfl, rfl, rfl, rfl⟩
  · rw [p, Nat.mod_add_div]
    clear q q'
    generalize (decide (W64 ≤ a6 + l + 0)).toNat = f at *
    simp only [W64] at *
    omega

/-- The other rows of the product. -/
def rows (A1 A2 A3 : Operand) (p : Ptr) : List Instr :=
  .mov .rdx A1 :: (mac .rcx .rax (.reg .r13) .r9 .r10 .r11 ++ (mac .rcx .rax (.reg .r14) .r10 .r11 .r12 ++
    (.xor .r13 (.reg .r13) :: (mac .rcx .rax (.reg .r15) .r11 .r12 .r13 ++ (.xor .r14 (.reg .r14) ::
    (mac .rcx .rax (.mem p 3) .r12 .r13 .r14 ++ (.mov .rdx A2 :: (mac .rcx .rax (.mem p 0) .r10 .r11 .r12 ++
    (mac .rcx .rax (.mem p 1) .r11 .r12 .r13 ++ (mac .rcx .rax (.reg .r15) .r12 .r13 .r14 ++ (.xor .r15 (.reg .r15) ::
    (mac .rcx .rax (.mem p 3) .r13 .r14 .r15 ++ (.mov .rdx A3 :: (mac .rcx .rax (.mem p 0) .r11 .r12 .r13 ++
    (mac .rcx .rax (.mem p 1) .r12 .r13 .r14 ++ (mac .rcx .rax (.mem p 2) .r13 .r14 .r15 ++
    [.mulx .rcx .rax (.mem p 3), .add .r14 (.reg .rax), .adc .r15 (.reg .rcx)]))))))))))))))))

theorem rows_spec {e : Env} {s : State} {A1 A2 A3 : Operand} {p : Ptr} {a0 a1 a2 a3 b0 b1 b2 b3 x0 x1 x2 x3 x4 : Nat} (he : EnvOk e)
    (hw : Words64 s) (h : Regs s a0 x0 x1 x2 x3 x4 b0 b1 b2) (hA1 : ∀ t : State, t.reg .r14 = b1 → read e t A1 = a1)
    (hA2 : ∀ t : State, t.reg .r15 = b2 → read e t A2 = a2) (hA3 : ∀ t : State, read e t A3 = a3)
    (w1 : WordOperand A1) (w2 : WordOperand A2) (w3 : WordOperand A3)
    (hb0 : ∀ t, read e t (.mem p 0) = b0) (hb1 : ∀ t, read e t (.mem p 1) = b1) (hb2 : ∀ t, read e t (.mem p 2) = b2)
    (hb3 : ∀ t, read e t (.mem p 3) = b3) (k0 : b0 < W64) (k1 : b1 < W64) (k2 : b2 < W64) (k3 : b3 < W64)
    (hk : keepsCarries e (rows A1 A2 A3 p) s = true) :
    ∃ y0 y1 y2 y3 y4 y5 y6 y7 c, Regs (run e (rows A1 A2 A3 p) s) a3 y0 y1 y2 y3 y4 y5 y6 y7 ∧
      y0 + W64 * (y1 + W64 * (y2 + W64 * (y3 + W64 * (y4 + W64 * (y5 + W64 * (y6 + W64 * (y7 + W64 * c))))))) =
        x0 + W64 * (x1 + W64 * (x2 + W64 * (x3 + W64 * x4))) +
          W64 * (a1 + W64 * (a2 + W64 * a3)) * (b0 + W64 * (b1 + W64 * (b2 + W64 * b3))) ∧
      Words64 (run e (rows A1 A2 A3 p) s) := by
  simp only [rows, keepsCarries, keepsCarries_append, dropsCarry, Bool.and_eq_true, Bool.false_and, Bool.not_false, true_and] at hk
  simp only [rows, run_cons, run_append]
  obtain ⟨h1, h2, h3, h4, h5, h6, h7, h8, h9, h10, h11, -⟩ := hk
  have hl : (Reg.rcx = Reg.rcx ∧ Reg.rax = Reg.rax) ∨ (Reg.rcx = Reg.rax ∧ Reg.rax = Reg.rcx) := .inl ⟨rfl, rfl⟩
  -- row 1
  replace h := movDx (e := e) h (hA1 s h.r14)
  replace hw := exec_words he hw (i := .mov .rdx A1) w1
  generalize exec e s (.mov .rdx A1) = s1 at *
  obtain ⟨u0, u1, u2, g, e1⟩ := mac1 (e := e) (x := .reg .r13) hw h hl h.r13 k0 h1
  replace hw := mac_words he hw .rcx .rax .r9 .r10 .r11 (x := .reg .r13) trivial
  generalize run e (mac .rcx .rax (.reg .r13) .r9 .r10 .r11) s1 = s2 at *
  obtain ⟨u3, u4, u5, g, e2⟩ := mac2 (e := e) (x := .reg .r14) hw g hl g.r14 k1 h2
  replace hw := mac_words he hw .rcx .rax .r10 .r11 .r12 (x := .reg .r14) trivial
  generalize run e (mac .rcx .rax (.reg .r14) .r10 .r11 .r12) s2 = s3 at *
  replace g := xor13 (e := e) g
  replace hw := exec_words he hw (i := .xor .r13 (.reg .r13)) trivial
  generalize exec e s3 (.xor .r13 (.reg .r13)) = s4 at *
  obtain ⟨u6, u7, u8, g, e3⟩ := mac3 (e := e) (x := .reg .r15) hw g hl g.r15 k2 h3
  replace hw := mac_words he hw .rcx .rax .r11 .r12 .r13 (x := .reg .r15) trivial
  generalize run e (mac .rcx .rax (.reg .r15) .r11 .r12 .r13) s4 = s5 at *
  replace g := xor14 (e := e) g
  replace hw := exec_words he hw (i := .xor .r14 (.reg .r14)) trivial
  generalize exec e s5 (.xor .r14 (.reg .r14)) = s6 at *
  obtain ⟨u9, u10, u11, g, e4⟩ := mac4 hw g hl (hb3 _) k3 h4
  replace hw := mac_words he hw .rcx .rax .r12 .r13 .r14 (x := .mem p 3) trivial
  generalize run e (mac .rcx .rax (.mem p 3) .r12 .r13 .r14) s6 = s7 at *
  -- row 2
  replace g := movDx (e := e) g (hA2 s7 g.r15)
  replace hw := exec_words he hw (i := .mov .rdx A2) w2
  generalize exec e s7 (.mov .rdx A2) = s8 at *
  obtain ⟨v0, v1, v2, g, e5⟩ := mac2 hw g hl (hb0 _) k0 h5
  replace hw := mac_words he hw .rcx .rax .r10 .r11 .r12 (x := .mem p 0) trivial
  generalize run e (mac .rcx .rax (.mem p 0) .r10 .r11 .r12) s8 = s9 at *
  obtain ⟨v3, v4, v5, g, e6⟩ := mac3 hw g hl (hb1 _) k1 h6
  replace hw := mac_words he hw .rcx .rax .r11 .r12 .r13 (x := .mem p 1) trivial
  generalize run e (mac .rcx .rax (.mem p 1) .r11 .r12 .r13) s9 = s10 at *
  obtain ⟨v6, v7, v8, g, e7⟩ := mac4 (e := e) (x := .reg .r15) hw g hl g.r15 k2 h7
  replace hw := mac_words he hw .rcx .rax .r12 .r13 .r14 (x := .reg .r15) trivial
  generalize run e (mac .rcx .rax (.reg .r15) .r12 .r13 .r14) s10 = s11 at *
  replace g := xor15 (e := e) g
  replace hw := exec_words he hw (i := .xor .r15 (.reg .r15)) trivial
  generalize exec e s11 (.xor .r15 (.reg .r15)) = s12 at *
  obtain ⟨v9, v10, v11, g, e8⟩ := mac5 hw g hl (hb3 _) k3 h8
  replace hw := mac_words he hw .rcx .rax .r13 .r14 .r15 (x := .mem p 3) trivial
  generalize run e (mac .rcx .rax (.mem p 3) .r13 .r14 .r15) s12 = s13 at *
  -- row 3
  replace g := movDx (e := e) g (hA3 s13)
  replace hw := exec_words he hw (i := .mov .rdx A3) w3
  generalize exec e s13 (.mov .rdx A3) = s14 at *
  obtain ⟨t0, t1, t2, g, e9⟩ := mac3 hw g hl (hb0 _) k0 h9
  replace hw := mac_words he hw .rcx .rax .r11 .r12 .r13 (x := .mem p 0) trivial
  generalize run e (mac .rcx .rax (.mem p 0) .r11 .r12 .r13) s14 = s15 at *
  obtain ⟨t3, t4, t5, g, e10⟩ := mac4 hw g hl (hb1 _) k1 h10
  replace hw := mac_words he hw .rcx .rax .r12 .r13 .r14 (x := .mem p 1) trivial
  generalize run e (mac .rcx .rax (.mem p 1) .r12 .r13 .r14) s15 = s16 at *
  obtain ⟨t6, t7, t8, g, e11⟩ := mac5 hw g hl (hb2 _) k2 h11
  replace hw := mac_words he hw .rcx .rax .r13 .r14 .r15 (x := .mem p 2) trivial
  generalize run e (mac .rcx .rax (.mem p 2) .r13 .r14 .r15) s16 = s17 at *
  obtain ⟨y, z, c, g, e12⟩ := top (.adc .r15 (.reg .rcx)) hw g (hb3 _) k3 (.inl ⟨rfl, rfl, rfl⟩)
  refine ⟨_, _, _, _, _, _, _, _, c, g, ?_, ?_⟩
  case refine_2 =>
    exact exec_words he (exec_words he (exec_words he hw (i := .mulx .rcx .rax (.mem p 3)) trivial)
      (i := .add .r14 (.reg .rax)) trivial) (i := .adc .r15 (.reg .rcx)) trivial
  clear h1 h2 h3 h4 h5 h6 h7 h8 h9 h10 h11 hw
  zify at *
  linear_combination (W64 : ℤ) * e1 + (W64 : ℤ) ^ 2 * (e2 + e5) + (W64 : ℤ) ^ 3 * (e3 + e6 + e9) + (W64 : ℤ) ^ 4 * (e4 + e7 + e10) +
    (W64 : ℤ) ^ 5 * (e8 + e11) + (W64 : ℤ) ^ 6 * e12

end Verif.Asm
