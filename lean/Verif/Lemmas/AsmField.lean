import Verif.Lemmas.AsmChains

/-! Helper lemmas for the assembly: the field operations. -/

namespace Verif.Asm

open Spec

theorem start (s : State) : Holds s (s.reg .r8) (s.reg .r9) (s.reg .r10) (s.reg .r11) (s.reg .r12) (s.reg .r13) (s.reg .r14) (s.reg .r15)
    s.cf := ⟨rfl, rfl, rfl, rfl, rfl, rfl, rfl, rfl, rfl⟩

theorem high_eq {s : State} {a0 a1 a2 a3 : Nat} {z : Limbs} {f : Bool} (h : Holds s a0 a1 a2 a3 z.l0 z.l1 z.l2 z.l3 f) : high s = z := by
  unfold high
  rw [h.r12, h.r13, h.r14, h.r15]

theorem low_eq {s : State} {a4 a5 a6 a7 : Nat} {z : Limbs} {f : Bool} (h : Holds s z.l0 z.l1 z.l2 z.l3 a4 a5 a6 a7 f) : low s = z := by
  unfold low
  rw [h.r8, h.r9, h.r10, h.r11]

/-- Four loads and a chain of additions. -/
theorem add_chain {e : Env} (s : State) (a b : Limbs) (ha : e.a = word4 a) (hb : e.b = word4 b) :
    ∃ a4 a5 a6 a7 f, Holds (run e [.mov .r8 (.mem .a 0), .mov .r9 (.mem .a 1), .mov .r10 (.mem .a 2), .mov .r11 (.mem .a 3),
      .add .r8 (.mem .b 0), .adcx .r9 (.mem .b 1), .adcx .r10 (.mem .b 2), .adcx .r11 (.mem .b 3)] s)
      (sum a.l0 a.l1 a.l2 a.l3 b.l0 b.l1 b.l2 b.l3).l0 (sum a.l0 a.l1 a.l2 a.l3 b.l0 b.l1 b.l2 b.l3).l1
      (sum a.l0 a.l1 a.l2 a.l3 b.l0 b.l1 b.l2 b.l3).l2 (sum a.l0 a.l1 a.l2 a.l3 b.l0 b.l1 b.l2 b.l3).l3 a4 a5 a6 a7 f := by
  have m0 : ∀ t, read e t (.mem .a 0) = a.l0 := fun t => congrFun ha 0
  have m1 : ∀ t, read e t (.mem .a 1) = a.l1 := fun t => congrFun ha 1
  have m2 : ∀ t, read e t (.mem .a 2) = a.l2 := fun t => congrFun ha 2
  have m3 : ∀ t, read e t (.mem .a 3) = a.l3 := fun t => congrFun ha 3
  have n0 : ∀ t, read e t (.mem .b 0) = b.l0 := fun t => congrFun hb 0
  have n1 : ∀ t, read e t (.mem .b 1) = b.l1 := fun t => congrFun hb 1
  have n2 : ∀ t, read e t (.mem .b 2) = b.l2 := fun t => congrFun hb 2
  have n3 : ∀ t, read e t (.mem .b 3) = b.l3 := fun t => congrFun hb 3
  simp only [run_cons, run_nil]
  have h := mov_r8 (start s) (m0 _)
  replace h := mov_r9 h (m1 _)
  replace h := mov_r10 h (m2 _)
  replace h := mov_r11 h (m3 _)
  replace h := add_r8 h (n0 _)
  replace h := adcx_r9 h (n1 _)
  replace h := adcx_r10 h (n2 _)
  replace h := adcx_r11 h (n3 _)
  simp only [sum]
  exact ⟨_, _, _, _, _, h⟩

theorem add_eq (c : FieldConsts) (s : State) (a b : Limbs) :
    add c s a b = condSub (sum a.l0 a.l1 a.l2 a.l3 b.l0 b.l1 b.l2 b.l3) c.modulus := by
  have e1 : addAsm = [.mov .r8 (.mem .a 0), .mov .r9 (.mem .a 1), .mov .r10 (.mem .a 2), .mov .r11 (.mem .a 3),
      .add .r8 (.mem .b 0), .adcx .r9 (.mem .b 1), .adcx .r10 (.mem .b 2), .adcx .r11 (.mem .b 3)] ++ subHigh := rfl
  obtain ⟨a4, a5, a6, a7, f, h⟩ := add_chain (e := env c a b) s a b rfl rfl
  unfold add
  rw [e1, run_append]
  generalize run (env c a b) _ s = u at *
  generalize sum a.l0 a.l1 a.l2 a.l3 b.l0 b.l1 b.l2 b.l3 = v at *
  obtain ⟨f', h'⟩ := subHigh_spec (e := env c a b) h (m := c.modulus) rfl rfl rfl rfl
  exact high_eq h'

theorem double_eq (c : FieldConsts) (s : State) (a : Limbs) :
    double c s a = condSub (sum a.l0 a.l1 a.l2 a.l3 a.l0 a.l1 a.l2 a.l3) c.modulus := by
  have e1 : doubleAsm = [.mov .r8 (.mem .a 0), .mov .r9 (.mem .a 1), .mov .r10 (.mem .a 2), .mov .r11 (.mem .a 3),
      .add .r8 (.reg .r8), .adcx .r9 (.reg .r9), .adcx .r10 (.reg .r10), .adcx .r11 (.reg .r11)] ++ subHigh := rfl
  have h : ∃ a4 a5 a6 a7 f, Holds (run (env c a a) [.mov .r8 (.mem .a 0), .mov .r9 (.mem .a 1), .mov .r10 (.mem .a 2),
      .mov .r11 (.mem .a 3), .add .r8 (.reg .r8), .adcx .r9 (.reg .r9), .adcx .r10 (.reg .r10), .adcx .r11 (.reg .r11)] s)
      (sum a.l0 a.l1 a.l2 a.l3 a.l0 a.l1 a.l2 a.l3).l0 (sum a.l0 a.l1 a.l2 a.l3 a.l0 a.l1 a.l2 a.l3).l1
      (sum a.l0 a.l1 a.l2 a.l3 a.l0 a.l1 a.l2 a.l3).l2 (sum a.l0 a.l1 a.l2 a.l3 a.l0 a.l1 a.l2 a.l3).l3 a4 a5 a6 a7 f := by
    have m0 : ∀ t, read (env c a a) t (.mem .a 0) = a.l0 := fun t => rfl
    have m1 : ∀ t, read (env c a a) t (.mem .a 1) = a.l1 := fun t => rfl
    have m2 : ∀ t, read (env c a a) t (.mem .a 2) = a.l2 := fun t => rfl
    have m3 : ∀ t, read (env c a a) t (.mem .a 3) = a.l3 := fun t => rfl
    simp only [run_cons, run_nil]
    have h := mov_r8 (start s) (m0 _)
    replace h := mov_r9 h (m1 _)
    replace h := mov_r10 h (m2 _)
    replace h := mov_r11 h (m3 _)
    replace h := add_r8 (e := env c a a) (x := .reg .r8) h h.r8
    replace h := adcx_r9 (e := env c a a) (x := .reg .r9) h h.r9
    replace h := adcx_r10 (e := env c a a) (x := .reg .r10) h h.r10
    replace h := adcx_r11 (e := env c a a) (x := .reg .r11) h h.r11
    simp only [sum]
    exact ⟨_, _, _, _, _, h⟩
  obtain ⟨a4, a5, a6, a7, f, h⟩ := h
  unfold double
  rw [e1, run_append]
  generalize run (env c a a) _ s = u at *
  generalize sum a.l0 a.l1 a.l2 a.l3 a.l0 a.l1 a.l2 a.l3 = v at *
  obtain ⟨f', h'⟩ := subHigh_spec (e := env c a a) h (m := c.modulus) rfl rfl rfl rfl
  exact high_eq h'

theorem addition_stands {c : FieldConsts} {p : Nat} (S : Setup c p) {a b : Limbs} {x y : ZMod p} (ha : Stands p a x) (hb : Stands p b y) :
    Stands p (condSub (sum a.l0 a.l1 a.l2 a.l3 b.l0 b.l1 b.l2 b.l3) c.modulus) (x + y) := by
  obtain ⟨h1, h2⟩ := sum_spec ha.ok hb.ok
  obtain ⟨h3, h4⟩ := condSub_spec h1 S.ok
  generalize sum a.l0 a.l1 a.l2 a.l3 b.l0 b.l1 b.l2 b.l3 = v at *
  have l1 := ha.below
  have l2 := hb.below
  have l3 := S.small
  have t := toNat_le (carry a.l0 a.l1 a.l2 a.l3 b.l0 b.l1 b.l2 b.l3)
  generalize (carry a.l0 a.l1 a.l2 a.l3 b.l0 b.l1 b.l2 b.l3).toNat = k at *
  have hk : k = 0 := by
    have : k = 0 ∨ k = 1 := by omega
    rcases this with rfl | rfl
    · rfl
    · omega
  subst hk
  rw [Nat.mul_zero, Nat.add_zero] at h2
  rw [S.val, h2] at h4
  have key : ((a.val + b.val : Nat) : ZMod p) = (x + y) * 2 ^ 256 := by
    rw [Nat.cast_add, ha.value, hb.value]; ring
  by_cases hc : a.val + b.val < p
  · rw [if_pos hc] at h4
    exact ⟨h3, by omega, by rw [h4, key]⟩
  · rw [if_neg hc] at h4
    refine ⟨h3, by omega, ?_⟩
    rw [h4, Nat.cast_sub (by omega), ZMod.natCast_self, key, sub_zero]

/-! ### Subtraction -/

section

variable {e : Env} {s : State} {a0 a1 a2 a3 a4 a5 a6 a7 v : Nat} {f : Bool} {x : Operand}

theorem xor_r12 (h : Holds s a0 a1 a2 a3 a4 a5 a6 a7 f) : Holds (exec e s (.xor .r12 (.reg .r12))) a0 a1 a2 a3 0 a5 a6 a7 false :=
  ⟨h.r8, h.r9, h.r10, h.r11, Nat.xor_self _, h.r13, h.r14, h.r15, rfl⟩

theorem xor_r13 (h : Holds s a0 a1 a2 a3 a4 a5 a6 a7 f) : Holds (exec e s (.xor .r13 (.reg .r13))) a0 a1 a2 a3 a4 0 a6 a7 false :=
  ⟨h.r8, h.r9, h.r10, h.r11, h.r12, Nat.xor_self _, h.r14, h.r15, rfl⟩

theorem xor_r14 (h : Holds s a0 a1 a2 a3 a4 a5 a6 a7 f) : Holds (exec e s (.xor .r14 (.reg .r14))) a0 a1 a2 a3 a4 a5 0 a7 false :=
  ⟨h.r8, h.r9, h.r10, h.r11, h.r12, h.r13, Nat.xor_self _, h.r15, rfl⟩

theorem xor_r15 (h : Holds s a0 a1 a2 a3 a4 a5 a6 a7 f) : Holds (exec e s (.xor .r15 (.reg .r15))) a0 a1 a2 a3 a4 a5 a6 0 false :=
  ⟨h.r8, h.r9, h.r10, h.r11, h.r12, h.r13, h.r14, Nat.xor_self _, rfl⟩

end

theorem fold_diff {u : State} {x0 x1 x2 x3 y0 y1 y2 y3 a4 a5 a6 a7 : Nat} (h : Holds u ((x0 + 2 * W64 - y0 - 0) % W64)
    ((x1 + 2 * W64 - y1 - (decide (x0 < y0 + 0)).toNat) % W64)
    ((x2 + 2 * W64 - y2 - (decide (x1 < y1 + (decide (x0 < y0 + 0)).toNat)).toNat) % W64)
    ((x3 + 2 * W64 - y3 - (decide (x2 < y2 + (decide (x1 < y1 + (decide (x0 < y0 + 0)).toNat)).toNat)).toNat) % W64) a4 a5 a6 a7
    (decide (x3 < y3 + (decide (x2 < y2 + (decide (x1 < y1 + (decide (x0 < y0 + 0)).toNat)).toNat)).toNat))) :
    Holds u (diff x0 x1 x2 x3 y0 y1 y2 y3).l0 (diff x0 x1 x2 x3 y0 y1 y2 y3).l1 (diff x0 x1 x2 x3 y0 y1 y2 y3).l2
      (diff x0 x1 x2 x3 y0 y1 y2 y3).l3 a4 a5 a6 a7 (borrow x0 x1 x2 x3 y0 y1 y2 y3) := by
  simp only [diff, borrow]
  exact h

/-- What is added back after a subtraction. -/
def back (f : Bool) (m : Limbs) : Limbs := ⟨bif f then m.l0 else 0, bif f then m.l1 else 0, bif f then m.l2 else 0, bif f then m.l3 else 0⟩

theorem fold_back {u : State} {a0 a1 a2 a3 : Nat} {k f : Bool} {m : Limbs} (h : Holds u a0 a1 a2 a3 (bif k then m.l0 else 0)
    (bif k then m.l1 else 0) (bif k then m.l2 else 0) (bif k then m.l3 else 0) f) :
    Holds u a0 a1 a2 a3 (back k m).l0 (back k m).l1 (back k m).l2 (back k m).l3 f := h

theorem sub_eq (c : FieldConsts) (s : State) (a b : Limbs) :
    sub c s a b = sum (back (borrow a.l0 a.l1 a.l2 a.l3 b.l0 b.l1 b.l2 b.l3) c.modulus).l0 (back (borrow a.l0 a.l1 a.l2 a.l3 b.l0 b.l1 b.l2 b.l3) c.modulus).l1 (back (borrow a.l0 a.l1 a.l2 a.l3 b.l0 b.l1 b.l2 b.l3) c.modulus).l2 (back (borrow a.l0 a.l1 a.l2 a.l3 b.l0 b.l1 b.l2 b.l3) c.modulus).l3
      (diff a.l0 a.l1 a.l2 a.l3 b.l0 b.l1 b.l2 b.l3).l0 (diff a.l0 a.l1 a.l2 a.l3 b.l0 b.l1 b.l2 b.l3).l1
      (diff a.l0 a.l1 a.l2 a.l3 b.l0 b.l1 b.l2 b.l3).l2 (diff a.l0 a.l1 a.l2 a.l3 b.l0 b.l1 b.l2 b.l3).l3 := by
  have m0 : ∀ t, read (env c a b) t (.mem .a 0) = a.l0 := fun t => rfl
  have m1 : ∀ t, read (env c a b) t (.mem .a 1) = a.l1 := fun t => rfl
  have m2 : ∀ t, read (env c a b) t (.mem .a 2) = a.l2 := fun t => rfl
  have m3 : ∀ t, read (env c a b) t (.mem .a 3) = a.l3 := fun t => rfl
  have n0 : ∀ t, read (env c a b) t (.mem .b 0) = b.l0 := fun t => rfl
  have n1 : ∀ t, read (env c a b) t (.mem .b 1) = b.l1 := fun t => rfl
  have n2 : ∀ t, read (env c a b) t (.mem .b 2) = b.l2 := fun t => rfl
  have n3 : ∀ t, read (env c a b) t (.mem .b 3) = b.l3 := fun t => rfl
  have q0 : ∀ t, read (env c a b) t (.mem .m 0) = c.modulus.l0 := fun t => rfl
  have q1 : ∀ t, read (env c a b) t (.mem .m 1) = c.modulus.l1 := fun t => rfl
  have q2 : ∀ t, read (env c a b) t (.mem .m 2) = c.modulus.l2 := fun t => rfl
  have q3 : ∀ t, read (env c a b) t (.mem .m 3) = c.modulus.l3 := fun t => rfl
  unfold sub
  simp only [subAsm, run_cons, run_nil]
  generalize env c a b = e at *
  have h := xor_r12 (e := e) (start s)
  replace h := xor_r13 (e := e) h
  replace h := xor_r14 (e := e) h
  replace h := xor_r15 (e := e) h
  replace h := mov_r8 h (m0 _)
  replace h := mov_r9 h (m1 _)
  replace h := mov_r10 h (m2 _)
  replace h := mov_r11 h (m3 _)
  replace h := sub_r8 h (n0 _)
  replace h := sbb_r9 h (n1 _)
  replace h := sbb_r10 h (n2 _)
  replace h := sbb_r11 h (n3 _)
  replace h := fold_diff h
  generalize diff a.l0 a.l1 a.l2 a.l3 b.l0 b.l1 b.l2 b.l3 = d at *
  generalize borrow a.l0 a.l1 a.l2 a.l3 b.l0 b.l1 b.l2 b.l3 = k at *
  replace h := cmovc_r12 h (q0 _)
  replace h := cmovc_r13 h (q1 _)
  replace h := cmovc_r14 h (q2 _)
  replace h := cmovc_r15 h (q3 _)
  replace h := fold_back h
  generalize back k c.modulus = g at *
  replace h := add_r12 (e := e) (x := .reg .r8) h h.r8
  replace h := adcx_r13 (e := e) (x := .reg .r9) h h.r9
  replace h := adcx_r14 (e := e) (x := .reg .r10) h h.r10
  replace h := adcx_r15 (e := e) (x := .reg .r11) h h.r11
  unfold high
  rw [h.r12, h.r13, h.r14, h.r15]
  unfold sum
  rfl

theorem subtraction_stands {c : FieldConsts} {p : Nat} (S : Setup c p) (s : State) {a b : Limbs} {x y : ZMod p} (ha : Stands p a x)
    (hb : Stands p b y) : Stands p (sub c s a b) (x - y) := by
  rw [sub_eq]
  obtain ⟨h1, h2⟩ := diff_spec ha.ok hb.ok
  have hback : (back (borrow a.l0 a.l1 a.l2 a.l3 b.l0 b.l1 b.l2 b.l3) c.modulus).Ok ∧ (back (borrow a.l0 a.l1 a.l2 a.l3 b.l0 b.l1 b.l2 b.l3) c.modulus).val =
      p * (borrow a.l0 a.l1 a.l2 a.l3 b.l0 b.l1 b.l2 b.l3).toNat := by
    unfold back
    rw [← S.val]
    have := S.ok
    generalize borrow a.l0 a.l1 a.l2 a.l3 b.l0 b.l1 b.l2 b.l3 = f
    cases f
    · simp [Limbs.Ok, Limbs.val, W64]
    · simpa [Limbs.Ok, Limbs.val] using this
  obtain ⟨h3, h4⟩ := hback
  obtain ⟨h5, h6⟩ := sum_spec h3 h1
  have l1 := ha.below
  have l2 := hb.below
  have l3 := S.small
  have l4 := Limbs.val_lt h5
  have l5 := Limbs.val_lt h1
  have t := toNat_le (carry (back (borrow a.l0 a.l1 a.l2 a.l3 b.l0 b.l1 b.l2 b.l3) c.modulus).l0 (back (borrow a.l0 a.l1 a.l2 a.l3 b.l0 b.l1 b.l2 b.l3) c.modulus).l1 (back (borrow a.l0 a.l1 a.l2 a.l3 b.l0 b.l1 b.l2 b.l3) c.modulus).l2 (back (borrow a.l0 a.l1 a.l2 a.l3 b.l0 b.l1 b.l2 b.l3) c.modulus).l3
      (diff a.l0 a.l1 a.l2 a.l3 b.l0 b.l1 b.l2 b.l3).l0 (diff a.l0 a.l1 a.l2 a.l3 b.l0 b.l1 b.l2 b.l3).l1
      (diff a.l0 a.l1 a.l2 a.l3 b.l0 b.l1 b.l2 b.l3).l2 (diff a.l0 a.l1 a.l2 a.l3 b.l0 b.l1 b.l2 b.l3).l3)
  generalize (carry (back (borrow a.l0 a.l1 a.l2 a.l3 b.l0 b.l1 b.l2 b.l3) c.modulus).l0 (back (borrow a.l0 a.l1 a.l2 a.l3 b.l0 b.l1 b.l2 b.l3) c.modulus).l1 (back (borrow a.l0 a.l1 a.l2 a.l3 b.l0 b.l1 b.l2 b.l3) c.modulus).l2 (back (borrow a.l0 a.l1 a.l2 a.l3 b.l0 b.l1 b.l2 b.l3) c.modulus).l3
      (diff a.l0 a.l1 a.l2 a.l3 b.l0 b.l1 b.l2 b.l3).l0 (diff a.l0 a.l1 a.l2 a.l3 b.l0 b.l1 b.l2 b.l3).l1
      (diff a.l0 a.l1 a.l2 a.l3 b.l0 b.l1 b.l2 b.l3).l2 (diff a.l0 a.l1 a.l2 a.l3 b.l0 b.l1 b.l2 b.l3).l3).toNat = k at *
  generalize sum (back (borrow a.l0 a.l1 a.l2 a.l3 b.l0 b.l1 b.l2 b.l3) c.modulus).l0 (back (borrow a.l0 a.l1 a.l2 a.l3 b.l0 b.l1 b.l2 b.l3) c.modulus).l1 (back (borrow a.l0 a.l1 a.l2 a.l3 b.l0 b.l1 b.l2 b.l3) c.modulus).l2 (back (borrow a.l0 a.l1 a.l2 a.l3 b.l0 b.l1 b.l2 b.l3) c.modulus).l3
      (diff a.l0 a.l1 a.l2 a.l3 b.l0 b.l1 b.l2 b.l3).l0 (diff a.l0 a.l1 a.l2 a.l3 b.l0 b.l1 b.l2 b.l3).l1
      (diff a.l0 a.l1 a.l2 a.l3 b.l0 b.l1 b.l2 b.l3).l2 (diff a.l0 a.l1 a.l2 a.l3 b.l0 b.l1 b.l2 b.l3).l3 = z at *
  generalize diff a.l0 a.l1 a.l2 a.l3 b.l0 b.l1 b.l2 b.l3 = d at *
  generalize back (borrow a.l0 a.l1 a.l2 a.l3 b.l0 b.l1 b.l2 b.l3) c.modulus = g at *
  have hk : k = 0 ∨ k = 1 := by omega
  cases hf : borrow a.l0 a.l1 a.l2 a.l3 b.l0 b.l1 b.l2 b.l3
  · rw [hf, Bool.toNat_false, Nat.mul_zero] at h2 h4
    rw [h4, Nat.zero_add] at h6
    generalize W64 ^ 4 = R at *
    have : k = 0 := by
      rcases hk with rfl | rfl
      · rfl
      · omega
    subst this
    have hz : z.val + b.val = a.val := by omega
    refine ⟨h5, by omega, ?_⟩
    have : ((z.val + b.val : Nat) : ZMod p) = (a.val : ZMod p) := by rw [hz]
    rw [Nat.cast_add, ha.value, hb.value] at this
    linear_combination this
  · rw [hf, Bool.toNat_true, Nat.mul_one] at h2 h4
    rw [h4] at h6
    generalize W64 ^ 4 = R at *
    have hz : z.val + b.val = a.val + p := by
      rcases hk with rfl | rfl <;> omega
    refine ⟨h5, ?_, ?_⟩
    · have : a.val < b.val := by omega
      omega
    · have : ((z.val + b.val : Nat) : ZMod p) = ((a.val + p : Nat) : ZMod p) := by rw [hz]
      rw [Nat.cast_add, Nat.cast_add, ZMod.natCast_self, ha.value, hb.value] at this
      linear_combination this

/-! ### Negation -/

theorem mask_and {z : Nat} (hz : z < W64) : z &&& 0xffffffffffffffff = z := by
  have : (0xffffffffffffffff : Nat) = 2 ^ 64 - 1 := rfl
  rw [this, Nat.and_two_pow_sub_one_eq_mod, Nat.mod_eq_of_lt]
  exact hz

theorem neg_tail (e : Env) (s : State) :
    low (run e [.mov .r12 (.mem .a 0), .mov .r13 (.mem .a 1), .mov .r14 (.mem .a 2), .mov .r15 (.mem .a 3),
      .or .r12 (.reg .r13), .or .r14 (.reg .r15), .or .r12 (.reg .r14), .mov .r13 (.imm 0xffffffffffffffff),
      .cmp .r12 (.imm 0x0000000000000000), .cmove .r13 (.reg .r12), .and .r8 (.reg .r13), .and .r9 (.reg .r13),
      .and .r10 (.reg .r13), .and .r11 (.reg .r13)] s) =
    if (e.a 0 ||| e.a 1) ||| (e.a 2 ||| e.a 3) = 0 then ⟨0, 0, 0, 0⟩ else
      ⟨s.reg .r8 &&& 0xffffffffffffffff, s.reg .r9 &&& 0xffffffffffffffff, s.reg .r10 &&& 0xffffffffffffffff,
        s.reg .r11 &&& 0xffffffffffffffff⟩ := by
  have e1 : ([.mov .r12 (.mem .a 0), .mov .r13 (.mem .a 1), .mov .r14 (.mem .a 2), .mov .r15 (.mem .a 3),
      .or .r12 (.reg .r13), .or .r14 (.reg .r15), .or .r12 (.reg .r14), .mov .r13 (.imm 0xffffffffffffffff),
      .cmp .r12 (.imm 0x0000000000000000), .cmove .r13 (.reg .r12), .and .r8 (.reg .r13), .and .r9 (.reg .r13),
      .and .r10 (.reg .r13), .and .r11 (.reg .r13)] : List Instr) =
      [.mov .r12 (.mem .a 0), .mov .r13 (.mem .a 1), .mov .r14 (.mem .a 2), .mov .r15 (.mem .a 3),
      .or .r12 (.reg .r13), .or .r14 (.reg .r15), .or .r12 (.reg .r14), .mov .r13 (.imm 0xffffffffffffffff)] ++
      [.cmp .r12 (.imm 0x0000000000000000), .cmove .r13 (.reg .r12), .and .r8 (.reg .r13), .and .r9 (.reg .r13),
      .and .r10 (.reg .r13), .and .r11 (.reg .r13)] := rfl
  rw [e1, run_append]
  have h8 : (run e [.mov .r12 (.mem .a 0), .mov .r13 (.mem .a 1), .mov .r14 (.mem .a 2), .mov .r15 (.mem .a 3),
      .or .r12 (.reg .r13), .or .r14 (.reg .r15), .or .r12 (.reg .r14), .mov .r13 (.imm 0xffffffffffffffff)] s).reg .r8 = s.reg .r8 := rfl
  have h9 : (run e [.mov .r12 (.mem .a 0), .mov .r13 (.mem .a 1), .mov .r14 (.mem .a 2), .mov .r15 (.mem .a 3),
      .or .r12 (.reg .r13), .or .r14 (.reg .r15), .or .r12 (.reg .r14), .mov .r13 (.imm 0xffffffffffffffff)] s).reg .r9 = s.reg .r9 := rfl
  have h10 : (run e [.mov .r12 (.mem .a 0), .mov .r13 (.mem .a 1), .mov .r14 (.mem .a 2), .mov .r15 (.mem .a 3),
      .or .r12 (.reg .r13), .or .r14 (.reg .r15), .or .r12 (.reg .r14), .mov .r13 (.imm 0xffffffffffffffff)] s).reg .r10 = s.reg .r10 := rfl
  have h11 : (run e [.mov .r12 (.mem .a 0), .mov .r13 (.mem .a 1), .mov .r14 (.mem .a 2), .mov .r15 (.mem .a 3),
      .or .r12 (.reg .r13), .or .r14 (.reg .r15), .or .r12 (.reg .r14), .mov .r13 (.imm 0xffffffffffffffff)] s).reg .r11 = s.reg .r11 := rfl
  have h12 : (run e [.mov .r12 (.mem .a 0), .mov .r13 (.mem .a 1), .mov .r14 (.mem .a 2), .mov .r15 (.mem .a 3),
      .or .r12 (.reg .r13), .or .r14 (.reg .r15), .or .r12 (.reg .r14), .mov .r13 (.imm 0xffffffffffffffff)] s).reg .r12 =
      (e.a 0 ||| e.a 1) ||| (e.a 2 ||| e.a 3) := rfl
  have h13 : (run e [.mov .r12 (.mem .a 0), .mov .r13 (.mem .a 1), .mov .r14 (.mem .a 2), .mov .r15 (.mem .a 3),
      .or .r12 (.reg .r13), .or .r14 (.reg .r15), .or .r12 (.reg .r14), .mov .r13 (.imm 0xffffffffffffffff)] s).reg .r13 =
      0xffffffffffffffff := rfl
  generalize run e _ s = u at *
  rw [← h8, ← h9, ← h10, ← h11, ← h13, ← h12]
  simp only [run_cons, run_nil]
  have hz : (exec e u (.cmp .r12 (.imm 0))).zf = decide (u.reg .r12 = 0) := rfl
  have hr : (exec e u (.cmp .r12 (.imm 0))).reg = u.reg := rfl
  generalize exec e u (.cmp .r12 (.imm 0)) = w at *
  by_cases h0 : u.reg .r12 = 0
  · rw [if_pos h0]
    have : exec e w (.cmove .r13 (.reg .r12)) = w.set .r13 0 := by
      show (if w.zf then w.set .r13 (w.reg .r12) else w) = _
      rw [hz, decide_eq_true h0, if_pos rfl, hr, h0]
    rw [this]
    show Limbs.mk (w.reg .r8 &&& 0) (w.reg .r9 &&& 0) (w.reg .r10 &&& 0) (w.reg .r11 &&& 0) = _
    simp only [Nat.and_zero]
  · rw [if_neg h0]
    have : exec e w (.cmove .r13 (.reg .r12)) = w := by
      show (if w.zf then w.set .r13 (w.reg .r12) else w) = _
      rw [hz, decide_eq_false h0, if_neg (by simp)]
    rw [this, ← hr]
    rfl

theorem neg_eq (c : FieldConsts) (s : State) {a : Limbs} (ha : a.Ok) (hm : c.modulus.Ok) :
    neg c s a = if a.val = 0 then ⟨0, 0, 0, 0⟩ else
      diff c.modulus.l0 c.modulus.l1 c.modulus.l2 c.modulus.l3 a.l0 a.l1 a.l2 a.l3 := by
  have m0 : ∀ t, read (env c a a) t (.mem .a 0) = a.l0 := fun t => rfl
  have m1 : ∀ t, read (env c a a) t (.mem .a 1) = a.l1 := fun t => rfl
  have m2 : ∀ t, read (env c a a) t (.mem .a 2) = a.l2 := fun t => rfl
  have m3 : ∀ t, read (env c a a) t (.mem .a 3) = a.l3 := fun t => rfl
  have q0 : ∀ t, read (env c a a) t (.mem .m 0) = c.modulus.l0 := fun t => rfl
  have q1 : ∀ t, read (env c a a) t (.mem .m 1) = c.modulus.l1 := fun t => rfl
  have q2 : ∀ t, read (env c a a) t (.mem .m 2) = c.modulus.l2 := fun t => rfl
  have q3 : ∀ t, read (env c a a) t (.mem .m 3) = c.modulus.l3 := fun t => rfl
  have e1 : negAsm = [.mov .r8 (.mem .m 0), .mov .r9 (.mem .m 1), .mov .r10 (.mem .m 2), .mov .r11 (.mem .m 3),
      .sub .r8 (.mem .a 0), .sbb .r9 (.mem .a 1), .sbb .r10 (.mem .a 2), .sbb .r11 (.mem .a 3)] ++
      [.mov .r12 (.mem .a 0), .mov .r13 (.mem .a 1), .mov .r14 (.mem .a 2), .mov .r15 (.mem .a 3),
      .or .r12 (.reg .r13), .or .r14 (.reg .r15), .or .r12 (.reg .r14), .mov .r13 (.imm 0xffffffffffffffff),
      .cmp .r12 (.imm 0x0000000000000000), .cmove .r13 (.reg .r12), .and .r8 (.reg .r13), .and .r9 (.reg .r13),
      .and .r10 (.reg .r13), .and .r11 (.reg .r13)] := rfl
  unfold neg
  rw [e1, run_append, neg_tail]
  have z : ((env c a a).a 0 ||| (env c a a).a 1) ||| ((env c a a).a 2 ||| (env c a a).a 3) = 0 ↔ a.val = 0 := by
    show (a.l0 ||| a.l1) ||| (a.l2 ||| a.l3) = 0 ↔ _
    rw [Nat.or_eq_zero_iff, Nat.or_eq_zero_iff, Nat.or_eq_zero_iff]
    simp only [Limbs.val, W64]
    omega
  simp only [z]
  congr 1
  simp only [run_cons, run_nil]
  generalize env c a a = e at *
  have h := mov_r8 (start s) (q0 _)
  replace h := mov_r9 h (q1 _)
  replace h := mov_r10 h (q2 _)
  replace h := mov_r11 h (q3 _)
  replace h := sub_r8 h (m0 _)
  replace h := sbb_r9 h (m1 _)
  replace h := sbb_r10 h (m2 _)
  replace h := sbb_r11 h (m3 _)
  replace h := fold_diff h
  obtain ⟨ok, -⟩ := diff_spec hm ha
  generalize diff c.modulus.l0 c.modulus.l1 c.modulus.l2 c.modulus.l3 a.l0 a.l1 a.l2 a.l3 = d at *
  obtain ⟨o0, o1, o2, o3⟩ := ok
  rw [h.r8, h.r9, h.r10, h.r11, mask_and o0, mask_and o1, mask_and o2, mask_and o3]

theorem negation_stands {c : FieldConsts} {p : Nat} (S : Setup c p) (s : State) {a : Limbs} {x : ZMod p} (ha : Stands p a x) :
    Stands p (neg c s a) (-x) := by
  rw [neg_eq c s ha.ok S.ok]
  by_cases h0 : a.val = 0
  · rw [if_pos h0]
    have h1 := ha.value
    rw [h0, Nat.cast_zero] at h1
    have h2 : x = 0 := by
      apply S.cancel
      rw [← h1, zero_mul]
    rw [h2, neg_zero]
    exact S.zero
  · rw [if_neg h0]
    obtain ⟨h1, h2⟩ := diff_spec S.ok ha.ok
    have l1 := ha.below
    have l2 := Limbs.val_lt h1
    have l3 := S.small
    generalize diff c.modulus.l0 c.modulus.l1 c.modulus.l2 c.modulus.l3 a.l0 a.l1 a.l2 a.l3 = d at *
    rw [S.val] at h2
    have t := toNat_le (borrow c.modulus.l0 c.modulus.l1 c.modulus.l2 c.modulus.l3 a.l0 a.l1 a.l2 a.l3)
    generalize (borrow c.modulus.l0 c.modulus.l1 c.modulus.l2 c.modulus.l3 a.l0 a.l1 a.l2 a.l3).toNat = k at *
    have hd : d.val + a.val = p := by
      have : k = 0 ∨ k = 1 := by omega
      rcases this with rfl | rfl <;> omega
    refine ⟨h1, by omega, ?_⟩
    have : ((d.val + a.val : Nat) : ZMod p) = (p : ZMod p) := by rw [hd]
    rw [Nat.cast_add, ha.value, ZMod.natCast_self] at this
    linear_combination this

/-! ### Multiplication -/

theorem env_ok {c : FieldConsts} {p : Nat} (S : Setup c p) (hi : c.inv < W64) {a b : Limbs} (ha : a.Ok) (hb : b.Ok) : EnvOk (env c a b) := by
  have hz : 0 < W64 := by norm_num [W64]
  have w : ∀ {l : Limbs}, l.Ok → ∀ i, word4 l i < W64 := by
    intro l hl i
    unfold word4
    split
    · exact hl.1
    · exact hl.2.1
    · exact hl.2.2.1
    · exact hl.2.2.2
    · exact hz
  exact ⟨w ha, w hb, w S.ok, hi⟩

/-- Whether the operand is a word. -/
def wordB : Operand → Bool
  | .imm n => decide (n < W64)
  | _ => true

/-- Whether the operands are words. -/
def wordsB : Instr → Bool
  | .mov _ x | .add _ x | .adc _ x | .adcx _ x | .sub _ x | .sbb _ x | .mulx _ _ x | .xor _ x | .or _ x | .and _ x
  | .cmp _ x | .cmovc _ x | .cmove _ x => wordB x

theorem word_of {x : Operand} (h : wordB x = true) : WordOperand x := by
  cases x with
  | imm n => exact of_decide_eq_true (p := n < W64) h
  | _ => trivial

theorem words_of {l : List Instr} (h : l.all wordsB = true) : ∀ i ∈ l, WordInstr i := by
  intro i hi
  have := List.all_eq_true.1 h i hi
  cases i <;> exact word_of this

theorem reduce_arith {R p V g T k : Nat} (hp : 0 < p) (hs : 2 * p ≤ R) (hk : k < R) (hT : T < R * p) (h : R * (V + R * g) = T + k * p) :
    g = 0 ∧ V < 2 * p := by
  have b1 : R * (V + R * g) < R * (2 * p) := by
    rw [h]
    have : k * p < R * p := Nat.mul_lt_mul_of_pos_right hk hp
    calc T + k * p < R * p + R * p := Nat.add_lt_add hT this
      _ = R * (2 * p) := by ring
  have b2 : V + R * g < 2 * p := Nat.lt_of_mul_lt_mul_left b1
  have g0 : g = 0 := by
    rcases Nat.eq_zero_or_pos g with h | h
    · exact h
    · have : R ≤ R * g := Nat.le_mul_of_pos_right _ h
      omega
  exact ⟨g0, by omega⟩

theorem top_zero {R X c Y : Nat} (h : X + R * c = Y) (hY : Y < R) : c = 0 := by
  rcases Nat.eq_zero_or_pos c with h' | h'
  · exact h'
  · have : R ≤ R * c := Nat.le_mul_of_pos_right _ h'
    omega

/-- The two subtractions after the rounds. -/
theorem finish_spec {c : FieldConsts} {p : Nat} (S : Setup c p) {e : Env} (hm : e.m = word4 c.modulus) {u : State} {z : Limbs} {f : Bool}
    {b0 b1 b2 b3 : Nat} (h : Holds u b0 b1 b2 b3 z.l0 z.l1 z.l2 z.l3 f) (hz : z.Ok) (hlt : z.val < 2 * p) :
    (high (run e (subLow ++ subHigh) u)).Ok ∧ (high (run e (subLow ++ subHigh) u)).val < p ∧
      ((high (run e (subLow ++ subHigh) u)).val : ZMod p) = (z.val : ZMod p) := by
  have hm0 : e.m 0 = c.modulus.l0 := by rw [hm]; rfl
  have hm1 : e.m 1 = c.modulus.l1 := by rw [hm]; rfl
  have hm2 : e.m 2 = c.modulus.l2 := by rw [hm]; rfl
  have hm3 : e.m 3 = c.modulus.l3 := by rw [hm]; rfl
  rw [run_append]
  obtain ⟨f1, h1⟩ := subLow_spec h hm0 hm1 hm2 hm3
  generalize run e subLow u = v at *
  obtain ⟨f2, h2⟩ := subHigh_spec h1 hm0 hm1 hm2 hm3
  rw [high_eq h2]
  clear h1 h2
  obtain ⟨c1, c2⟩ := condSub_spec hz S.ok
  rw [S.val] at c2
  have y1 : (condSub z c.modulus).val < p ∧ ((condSub z c.modulus).val : ZMod p) = (z.val : ZMod p) := by
    rw [c2]
    split
    · exact ⟨by assumption, rfl⟩
    · refine ⟨by omega, ?_⟩
      rw [Nat.cast_sub (by omega), ZMod.natCast_self, sub_zero]
  obtain ⟨d1, d2⟩ := condSub_spec c1 S.ok
  rw [S.val, if_pos y1.1] at d2
  exact ⟨d1, by rw [d2]; exact y1.1, by rw [d2]; exact y1.2⟩

/-- Rounds and subtractions. -/
theorem tail_spec {c : FieldConsts} {p : Nat} (S : Setup c p) {e : Env} (he : EnvOk e) (hm : e.m = word4 c.modulus) (hi : e.inv = c.inv)
    {s : State} {dx t0 t1 t2 t3 t4 t5 t6 t7 : Nat} (hw : Words64 s) (h : Regs s dx t0 t1 t2 t3 t4 t5 t6 t7)
    (hlt : t0 + W64 * (t1 + W64 * (t2 + W64 * (t3 + W64 * (t4 + W64 * (t5 + W64 * (t6 + W64 * t7)))))) < W64 ^ 4 * p) {z : ZMod p}
    (hz : ((t0 + W64 * (t1 + W64 * (t2 + W64 * (t3 + W64 * (t4 + W64 * (t5 + W64 * (t6 + W64 * t7)))))) : Nat) : ZMod p) =
      z * 2 ^ 256 * 2 ^ 256) (hk : keepsCarries e rounds s = true) :
    Stands p (high (run e (rounds ++ (subLow ++ subHigh)) s)) z := by
  have hm0 : e.m 0 = c.modulus.l0 := by rw [hm]; rfl
  have hm1 : e.m 1 = c.modulus.l1 := by rw [hm]; rfl
  have hm2 : e.m 2 = c.modulus.l2 := by rw [hm]; rfl
  have hm3 : e.m 3 = c.modulus.l3 := by rw [hm]; rfl
  obtain ⟨k, g, dx', z0, z1, z2, z3, k1, r1, e1⟩ := rounds_spec he hw h hm0 hm1 hm2 hm3 (by rw [hi]; exact S.inv) hk
  have hw' : Words64 (run e rounds s) := by
    refine run_words he ?_ hw
    exact words_of (by decide +kernel)
  rw [run_append]
  have hval : Limbs.val ⟨z0, z1, z2, z3⟩ = z0 + W64 * (z1 + W64 * (z2 + W64 * z3)) := rfl
  have e2 : W64 ^ 4 * (Limbs.val ⟨z0, z1, z2, z3⟩ + W64 ^ 4 * g) =
      t0 + W64 * (t1 + W64 * (t2 + W64 * (t3 + W64 * (t4 + W64 * (t5 + W64 * (t6 + W64 * t7)))))) + k * p := by
    have hmod : c.modulus.l0 + W64 * (c.modulus.l1 + W64 * (c.modulus.l2 + W64 * c.modulus.l3)) = p := S.val
    rw [hmod] at e1
    rw [← e1, hval]
    ring
  obtain ⟨g0, hV⟩ := reduce_arith S.pos S.small k1 hlt e2
  have e3 : (2 : ZMod p) ^ 256 * ((Limbs.val ⟨z0, z1, z2, z3⟩ : Nat) : ZMod p) = z * 2 ^ 256 * 2 ^ 256 := by
    rw [g0, Nat.mul_zero, Nat.add_zero] at e2
    rw [← hz, ← W64_pow p, ← Nat.cast_pow, ← Nat.cast_mul, e2, Nat.cast_add, Nat.cast_mul, ZMod.natCast_self, mul_zero, add_zero]
  obtain ⟨f1, f2, f3⟩ := finish_spec S hm (u := run e rounds s) (z := ⟨z0, z1, z2, z3⟩)
    ⟨r1.r8, r1.r9, r1.r10, r1.r11, r1.r12, r1.r13, r1.r14, r1.r15, rfl⟩
    ⟨r1.r12 ▸ hw' .r12, r1.r13 ▸ hw' .r13, r1.r14 ▸ hw' .r14, r1.r15 ▸ hw' .r15⟩ hV
  refine ⟨f1, f2, ?_⟩
  rw [f3]
  refine S.cancel ?_
  rw [← e3, mul_comm]

/-- The product of four words with four words. -/
def product (A0 A1 A2 A3 : Operand) (p : Ptr) : List Instr :=
  [.mov .r13 (.mem p 0), .mov .r14 (.mem p 1), .mov .r15 (.mem p 2)] ++ (row0 A0 p ++ rows A1 A2 A3 p)

theorem product_spec {e : Env} {s : State} {A0 A1 A2 A3 : Operand} {p : Ptr} {a b : Limbs} (he : EnvOk e) (hw : Words64 s)
    (ha : a.Ok) (hb : b.Ok)
    (hA0 : ∀ t : State, t.reg .r13 = b.l0 → read e t A0 = a.l0) (hA1 : ∀ t : State, t.reg .r14 = b.l1 → read e t A1 = a.l1)
    (hA2 : ∀ t : State, t.reg .r15 = b.l2 → read e t A2 = a.l2) (hA3 : ∀ t : State, read e t A3 = a.l3)
    (w0 : WordOperand A0) (w1 : WordOperand A1) (w2 : WordOperand A2) (w3 : WordOperand A3)
    (hb0 : ∀ t, read e t (.mem p 0) = b.l0) (hb1 : ∀ t, read e t (.mem p 1) = b.l1) (hb2 : ∀ t, read e t (.mem p 2) = b.l2)
    (hb3 : ∀ t, read e t (.mem p 3) = b.l3) (hk : keepsCarries e (product A0 A1 A2 A3 p) s = true) :
    ∃ y0 y1 y2 y3 y4 y5 y6 y7, Words64 (run e (product A0 A1 A2 A3 p) s) ∧
      Regs (run e (product A0 A1 A2 A3 p) s) a.l3 y0 y1 y2 y3 y4 y5 y6 y7 ∧
      y0 + W64 * (y1 + W64 * (y2 + W64 * (y3 + W64 * (y4 + W64 * (y5 + W64 * (y6 + W64 * y7)))))) = a.val * b.val := by
  obtain ⟨k0, k1, k2, k3⟩ := hb
  obtain ⟨j0, j1, j2, j3⟩ := ha
  have hl : run e (product A0 A1 A2 A3 p) s = run e (rows A1 A2 A3 p) (run e (row0 A0 p)
      (run e [.mov .r13 (.mem p 0), .mov .r14 (.mem p 1), .mov .r15 (.mem p 2)] s)) := by
    unfold product
    rw [run_append, run_append]
  have hk' : keepsCarries e (rows A1 A2 A3 p) (run e (row0 A0 p)
      (run e [.mov .r13 (.mem p 0), .mov .r14 (.mem p 1), .mov .r15 (.mem p 2)] s)) = true := by
    unfold product at hk
    rw [keepsCarries_append, keepsCarries_append] at hk
    simp only [Bool.and_eq_true] at hk
    exact hk.2.2
  rw [hl]
  have hw1 : Words64 (run e [.mov .r13 (.mem p 0), .mov .r14 (.mem p 1), .mov .r15 (.mem p 2)] s) :=
    run_words he (by
      intro i hi
      simp only [List.mem_cons, List.not_mem_nil, or_false] at hi
      rcases hi with rfl | rfl | rfl <;> trivial) hw
  have r13 : (run e [.mov .r13 (.mem p 0), .mov .r14 (.mem p 1), .mov .r15 (.mem p 2)] s).reg .r13 = b.l0 := hb0 s
  have r14 : (run e [.mov .r13 (.mem p 0), .mov .r14 (.mem p 1), .mov .r15 (.mem p 2)] s).reg .r14 = b.l1 := hb1 (exec e s (.mov .r13 (.mem p 0)))
  have r15 : (run e [.mov .r13 (.mem p 0), .mov .r14 (.mem p 1), .mov .r15 (.mem p 2)] s).reg .r15 = b.l2 :=
    hb2 (exec e (exec e s (.mov .r13 (.mem p 0))) (.mov .r14 (.mem p 1)))
  generalize run e [.mov .r13 (.mem p 0), .mov .r14 (.mem p 1), .mov .r15 (.mem p 2)] s = s1 at *
  obtain ⟨x0, x1, x2, x3, x4, g1, e1⟩ := row0_spec (A0 := A0) (hA0 s1 r13) r13 r14 r15 hb3 j0 k0 k1 k2 k3
  have hw2 : Words64 (run e (row0 A0 p) s1) := run_words he (by
      intro i hi
      have hz : 0 < W64 := by norm_num [W64]
      simp only [row0, List.mem_cons, List.not_mem_nil, or_false] at hi
      rcases hi with rfl | rfl | rfl | rfl | rfl | rfl | rfl | rfl | rfl
      all_goals first | trivial | exact hz | assumption) hw1
  generalize run e (row0 A0 p) s1 = s2 at *
  obtain ⟨y0, y1, y2, y3, y4, y5, y6, y7, c, g2, e2, hword⟩ := rows_spec he hw2 g1 hA1 hA2 hA3 w1 w2 w3 hb0 hb1 hb2 hb3 k0 k1 k2 k3 hk'
  refine ⟨y0, y1, y2, y3, y4, y5, y6, y7, hword, g2, ?_⟩
  have e3 : y0 + W64 * (y1 + W64 * (y2 + W64 * (y3 + W64 * (y4 + W64 * (y5 + W64 * (y6 + W64 * (y7 + W64 * c))))))) = a.val * b.val := by
    rw [e2, e1]
    simp only [Limbs.val]
    ring
  have l1 : a.val * b.val < W64 ^ 4 * W64 ^ 4 :=
    Nat.mul_lt_mul'' (Limbs.val_lt ⟨j0, j1, j2, j3⟩) (Limbs.val_lt ⟨k0, k1, k2, k3⟩)
  have c0 : c = 0 := top_zero (X := y0 + W64 * (y1 + W64 * (y2 + W64 * (y3 + W64 * (y4 + W64 * (y5 + W64 * (y6 + W64 * y7)))))))
    (by rw [← e3]; ring) l1
  rw [← e3, c0, Nat.mul_zero, Nat.add_zero]

theorem multiplication_stands {c : FieldConsts} {p : Nat} (S : Setup c p) (hi : c.inv < W64) {s : State} (hw : Words64 s) {a b : Limbs}
    {x y : ZMod p} (ha : Stands p a x) (hb : Stands p b y) (hk : keepsCarries (env c a b) mulAsm s = true) :
    Stands p (mul c s a b) (x * y) := by
  have e1 : mulAsm = product (.mem .a 0) (.mem .a 1) (.mem .a 2) (.mem .a 3) .b ++ (rounds ++ (subLow ++ subHigh)) := by decide +kernel
  have he := env_ok S hi ha.ok hb.ok
  unfold mul
  rw [e1] at hk ⊢
  rw [keepsCarries_append, keepsCarries_append, Bool.and_eq_true, Bool.and_eq_true] at hk
  obtain ⟨h1, h2, -⟩ := hk
  obtain ⟨y0, y1, y2, y3, y4, y5, y6, y7, hw', g, e2⟩ := product_spec (A0 := .mem .a 0) (A1 := .mem .a 1) (A2 := .mem .a 2)
    (A3 := .mem .a 3) (p := .b) (a := a) (b := b) he hw ha.ok hb.ok (fun _ _ => rfl) (fun _ _ => rfl)
    (fun _ _ => rfl) (fun _ => rfl) trivial trivial trivial trivial (fun _ => rfl) (fun _ => rfl) (fun _ => rfl) (fun _ => rfl) h1
  rw [run_append]
  refine tail_spec S he rfl rfl hw' g ?_ ?_ h2
  · rw [e2]
    exact lt_of_le_of_lt (Nat.mul_le_mul_right _ (Limbs.val_lt ha.ok).le) (Nat.mul_lt_mul_of_pos_left hb.below (by norm_num [W64]))
  · rw [e2, Nat.cast_mul, ha.value, hb.value]
    ring

theorem square_stands {c : FieldConsts} {p : Nat} (S : Setup c p) (hi : c.inv < W64) {s : State} (hw : Words64 s) {a : Limbs}
    {x : ZMod p} (ha : Stands p a x) (hk : keepsCarries (env c a a) squareAsm s = true) : Stands p (square c s a) (x * x) := by
  have e1 : squareAsm = product (.reg .r13) (.reg .r14) (.reg .r15) (.mem .a 3) .a ++ (rounds ++ (subLow ++ subHigh)) := by decide +kernel
  have he := env_ok S hi ha.ok ha.ok
  unfold square
  rw [e1] at hk ⊢
  rw [keepsCarries_append, keepsCarries_append, Bool.and_eq_true, Bool.and_eq_true] at hk
  obtain ⟨h1, h2, -⟩ := hk
  obtain ⟨y0, y1, y2, y3, y4, y5, y6, y7, hw', g, e2⟩ := product_spec (A0 := .reg .r13) (A1 := .reg .r14) (A2 := .reg .r15)
    (A3 := .mem .a 3) (p := .a) (a := a) (b := a) he hw ha.ok ha.ok (fun _ h => h) (fun _ h => h)
    (fun _ h => h) (fun _ => rfl) trivial trivial trivial trivial (fun _ => rfl) (fun _ => rfl) (fun _ => rfl) (fun _ => rfl) h1
  rw [run_append]
  refine tail_spec S he rfl rfl hw' g ?_ ?_ h2
  · rw [e2]
    exact lt_of_le_of_lt (Nat.mul_le_mul_right _ (Limbs.val_lt ha.ok).le) (Nat.mul_lt_mul_of_pos_left ha.below (by norm_num [W64]))
  · rw [e2, Nat.cast_mul, ha.value]
    ring

theorem reduction_stands {c : FieldConsts} {p : Nat} (S : Setup c p) (hi : c.inv < W64) {s : State} (hw : Words64 s) {t : Limbs8} (ht : t.Ok)
    (hlt : t.val < W64 ^ 4 * p) {z : ZMod p} (hz : (t.val : ZMod p) = z * 2 ^ 256 * 2 ^ 256)
    (hk : keepsCarries ⟨word8 t, fun _ => 0, word4 c.modulus, c.inv⟩ reduceAsm s = true) : Stands p (montgomeryReduce c s t) z := by
  have e1 : reduceAsm = [.mov .r8 (.mem .a 0), .mov .r9 (.mem .a 1), .mov .r10 (.mem .a 2), .mov .r11 (.mem .a 3),
      .mov .r12 (.mem .a 4), .mov .r13 (.mem .a 5), .mov .r14 (.mem .a 6), .mov .r15 (.mem .a 7)] ++
      (rounds ++ (subLow ++ subHigh)) := by decide +kernel
  have z0 : 0 < W64 := by norm_num [W64]
  have he : EnvOk ⟨word8 t, fun _ => 0, word4 c.modulus, c.inv⟩ := by
    refine ⟨?_, fun _ => z0, fun i => (env_ok S hi (a := ⟨0, 0, 0, 0⟩) (b := ⟨0, 0, 0, 0⟩) ⟨z0, z0, z0, z0⟩ ⟨z0, z0, z0, z0⟩).m i, hi⟩
    intro i
    obtain ⟨o0, o1, o2, o3, o4, o5, o6, o7⟩ := ht
    show word8 t i < W64
    unfold word8
    split <;> assumption
  unfold montgomeryReduce
  rw [e1] at hk ⊢
  rw [keepsCarries_append, keepsCarries_append, Bool.and_eq_true, Bool.and_eq_true] at hk
  obtain ⟨-, h2, -⟩ := hk
  rw [run_append]
  refine tail_spec (dx := s.reg .rdx) (t0 := t.l0) (t1 := t.l1) (t2 := t.l2) (t3 := t.l3) (t4 := t.l4) (t5 := t.l5) (t6 := t.l6) (t7 := t.l7)
    S he rfl rfl (run_words he (words_of (by decide +kernel)) hw) ⟨rfl, rfl, rfl, rfl, rfl, rfl, rfl, rfl, rfl⟩ hlt hz h2

end Verif.Asm
