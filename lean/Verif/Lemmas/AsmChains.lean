import Verif.Lemmas.AsmReduce

/-! Helper lemmas for the assembly: chains of additions and subtractions. -/

namespace Verif.Asm

theorem borrow_eq {x y k : Nat} (hx : x < W64) (hy : y < W64) (hk : k ≤ 1) :
    (x + 2 * W64 - y - k) % W64 + y + k = x + W64 * (decide (x < y + k)).toNat := by
  by_cases h : x < y + k
  · rw [decide_eq_true h]
    simp only [W64, Bool.toNat_true] at *
    omega
  · rw [decide_eq_false h]
    simp only [W64, Bool.toNat_false] at *
    omega

/-- The borrow out of four words. -/
def borrow (x0 x1 x2 x3 y0 y1 y2 y3 : Nat) : Bool :=
  decide (x3 < y3 + (decide (x2 < y2 + (decide (x1 < y1 + (decide (x0 < y0 + 0)).toNat)).toNat)).toNat)

/-- The difference of four words. -/
def diff (x0 x1 x2 x3 y0 y1 y2 y3 : Nat) : Limbs :=
  ⟨(x0 + 2 * W64 - y0 - 0) % W64, (x1 + 2 * W64 - y1 - (decide (x0 < y0 + 0)).toNat) % W64,
    (x2 + 2 * W64 - y2 - (decide (x1 < y1 + (decide (x0 < y0 + 0)).toNat)).toNat) % W64,
    (x3 + 2 * W64 - y3 - (decide (x2 < y2 + (decide (x1 < y1 + (decide (x0 < y0 + 0)).toNat)).toNat)).toNat) % W64⟩

/-- The carry out of four words. -/
def carry (x0 x1 x2 x3 y0 y1 y2 y3 : Nat) : Bool :=
  decide (W64 ≤ x3 + y3 + (decide (W64 ≤ x2 + y2 + (decide (W64 ≤ x1 + y1 + (decide (W64 ≤ x0 + y0 + 0)).toNat)).toNat)).toNat)

/-- The sum of four words. -/
def sum (x0 x1 x2 x3 y0 y1 y2 y3 : Nat) : Limbs :=
  ⟨(x0 + y0 + 0) % W64, (x1 + y1 + (decide (W64 ≤ x0 + y0 + 0)).toNat) % W64,
    (x2 + y2 + (decide (W64 ≤ x1 + y1 + (decide (W64 ≤ x0 + y0 + 0)).toNat)).toNat) % W64,
    (x3 + y3 + (decide (W64 ≤ x2 + y2 + (decide (W64 ≤ x1 + y1 + (decide (W64 ≤ x0 + y0 + 0)).toNat)).toNat)).toNat) % W64⟩

theorem mod_word (x : Nat) : x % W64 < W64 := Nat.mod_lt _ (by norm_num [W64])

theorem diff_spec {x y : Limbs} (hx : x.Ok) (hy : y.Ok) :
    (diff x.l0 x.l1 x.l2 x.l3 y.l0 y.l1 y.l2 y.l3).Ok ∧
      (diff x.l0 x.l1 x.l2 x.l3 y.l0 y.l1 y.l2 y.l3).val + y.val =
        x.val + W64 ^ 4 * (borrow x.l0 x.l1 x.l2 x.l3 y.l0 y.l1 y.l2 y.l3).toNat := by
  obtain ⟨x0, x1, x2, x3⟩ := x
  obtain ⟨y0, y1, y2, y3⟩ := y
  obtain ⟨h0, h1, h2, h3⟩ := hx
  obtain ⟨g0, g1, g2, g3⟩ := hy
  dsimp only at *
  refine ⟨⟨mod_word _, mod_word _, mod_word _, mod_word _⟩, ?_⟩
  have e0 := borrow_eq h0 g0 (Nat.zero_le 1)
  have e1 := borrow_eq h1 g1 (toNat_le (decide (x0 < y0 + 0)))
  have e2 := borrow_eq h2 g2 (toNat_le (decide (x1 < y1 + (decide (x0 < y0 + 0)).toNat)))
  have e3 := borrow_eq h3 g3 (toNat_le (decide (x2 < y2 + (decide (x1 < y1 + (decide (x0 < y0 + 0)).toNat)).toNat)))
  simp only [diff, borrow, Limbs.val]
  generalize (x3 + 2 * W64 - y3 - (decide (x2 < y2 + (decide (x1 < y1 + (decide (x0 < y0 + 0)).toNat)).toNat)).toNat) % W64 = z3 at *
  generalize (x2 + 2 * W64 - y2 - (decide (x1 < y1 + (decide (x0 < y0 + 0)).toNat)).toNat) % W64 = z2 at *
  generalize (x1 + 2 * W64 - y1 - (decide (x0 < y0 + 0)).toNat) % W64 = z1 at *
  generalize (x0 + 2 * W64 - y0 - 0) % W64 = z0 at *
  generalize (decide (x3 < y3 + (decide (x2 < y2 + (decide (x1 < y1 + (decide (x0 < y0 + 0)).toNat)).toNat)).toNat)).toNat = f3 at *
  generalize (decide (x2 < y2 + (decide (x1 < y1 + (decide (x0 < y0 + 0)).toNat)).toNat)).toNat = f2 at *
  generalize (decide (x1 < y1 + (decide (x0 < y0 + 0)).toNat)).toNat = f1 at *
  generalize (decide (x0 < y0 + 0)).toNat = f0 at *
  clear h0 h1 h2 h3 g0 g1 g2 g3
  simp only [W64] at *
  omega

theorem sum_spec {x y : Limbs} (hx : x.Ok) (hy : y.Ok) :
    (sum x.l0 x.l1 x.l2 x.l3 y.l0 y.l1 y.l2 y.l3).Ok ∧
      (sum x.l0 x.l1 x.l2 x.l3 y.l0 y.l1 y.l2 y.l3).val + W64 ^ 4 * (carry x.l0 x.l1 x.l2 x.l3 y.l0 y.l1 y.l2 y.l3).toNat =
        x.val + y.val := by
  obtain ⟨x0, x1, x2, x3⟩ := x
  obtain ⟨y0, y1, y2, y3⟩ := y
  obtain ⟨h0, h1, h2, h3⟩ := hx
  obtain ⟨g0, g1, g2, g3⟩ := hy
  dsimp only at *
  refine ⟨⟨mod_word _, mod_word _, mod_word _, mod_word _⟩, ?_⟩
  have t0 := toNat_le (decide (W64 ≤ x0 + y0 + 0))
  have t1 := toNat_le (decide (W64 ≤ x1 + y1 + (decide (W64 ≤ x0 + y0 + 0)).toNat))
  have t2 := toNat_le (decide (W64 ≤ x2 + y2 + (decide (W64 ≤ x1 + y1 + (decide (W64 ≤ x0 + y0 + 0)).toNat)).toNat))
  have e0 := carry_eq (x := x0 + y0 + 0) (by omega)
  have e1 := carry_eq (x := x1 + y1 + (decide (W64 ≤ x0 + y0 + 0)).toNat) (by omega)
  have e2 := carry_eq (x := x2 + y2 + (decide (W64 ≤ x1 + y1 + (decide (W64 ≤ x0 + y0 + 0)).toNat)).toNat) (by omega)
  have e3 := carry_eq
    (x := x3 + y3 + (decide (W64 ≤ x2 + y2 + (decide (W64 ≤ x1 + y1 + (decide (W64 ≤ x0 + y0 + 0)).toNat)).toNat)).toNat) (by omega)
  simp only [sum, carry, Limbs.val]
  generalize (decide (W64 ≤ x3 + y3 + (decide (W64 ≤ x2 + y2 + (decide (W64 ≤ x1 + y1 +
    (decide (W64 ≤ x0 + y0 + 0)).toNat)).toNat)).toNat)).toNat = f3 at *
  generalize (decide (W64 ≤ x2 + y2 + (decide (W64 ≤ x1 + y1 + (decide (W64 ≤ x0 + y0 + 0)).toNat)).toNat)).toNat = f2 at *
  generalize (decide (W64 ≤ x1 + y1 + (decide (W64 ≤ x0 + y0 + 0)).toNat)).toNat = f1 at *
  generalize (decide (W64 ≤ x0 + y0 + 0)).toNat = f0 at *
  clear h0 h1 h2 h3 g0 g1 g2 g3
  simp only [W64] at *
  omega

/-- The number, or the number less the modulus when it is not below it. -/
def condSub (x m : Limbs) : Limbs :=
  if borrow x.l0 x.l1 x.l2 x.l3 m.l0 m.l1 m.l2 m.l3 then x else diff x.l0 x.l1 x.l2 x.l3 m.l0 m.l1 m.l2 m.l3

theorem condSub_spec {x m : Limbs} (hx : x.Ok) (hm : m.Ok) :
    (condSub x m).Ok ∧ (condSub x m).val = if x.val < m.val then x.val else x.val - m.val := by
  obtain ⟨h1, h2⟩ := diff_spec hx hm
  have l1 := Limbs.val_lt hx
  have l2 := Limbs.val_lt hm
  have l3 := Limbs.val_lt h1
  unfold condSub
  cases hb : borrow x.l0 x.l1 x.l2 x.l3 m.l0 m.l1 m.l2 m.l3
  · rw [hb, Bool.toNat_false, Nat.mul_zero, Nat.add_zero] at h2
    simp only [Bool.false_eq_true, if_false]
    refine ⟨h1, ?_⟩
    rw [if_neg (by omega)]
    omega
  · rw [hb, Bool.toNat_true, Nat.mul_one] at h2
    simp only [if_true]
    refine ⟨hx, ?_⟩
    rw [if_pos (by omega)]

theorem select_l0 (b : Bool) (x d : Limbs) : (if b then x else d).l0 = bif b then x.l0 else d.l0 := by cases b <;> rfl

theorem select_l1 (b : Bool) (x d : Limbs) : (if b then x else d).l1 = bif b then x.l1 else d.l1 := by cases b <;> rfl

theorem select_l2 (b : Bool) (x d : Limbs) : (if b then x else d).l2 = bif b then x.l2 else d.l2 := by cases b <;> rfl

theorem select_l3 (b : Bool) (x d : Limbs) : (if b then x else d).l3 = bif b then x.l3 else d.l3 := by cases b <;> rfl

theorem condSub_l0 (x m : Limbs) : (condSub x m).l0 = bif borrow x.l0 x.l1 x.l2 x.l3 m.l0 m.l1 m.l2 m.l3 then x.l0 else
    (diff x.l0 x.l1 x.l2 x.l3 m.l0 m.l1 m.l2 m.l3).l0 := by
  unfold condSub
  exact select_l0 _ _ _

theorem condSub_l1 (x m : Limbs) : (condSub x m).l1 = bif borrow x.l0 x.l1 x.l2 x.l3 m.l0 m.l1 m.l2 m.l3 then x.l1 else
    (diff x.l0 x.l1 x.l2 x.l3 m.l0 m.l1 m.l2 m.l3).l1 := by
  unfold condSub
  exact select_l1 _ _ _

theorem condSub_l2 (x m : Limbs) : (condSub x m).l2 = bif borrow x.l0 x.l1 x.l2 x.l3 m.l0 m.l1 m.l2 m.l3 then x.l2 else
    (diff x.l0 x.l1 x.l2 x.l3 m.l0 m.l1 m.l2 m.l3).l2 := by
  unfold condSub
  exact select_l2 _ _ _

theorem condSub_l3 (x m : Limbs) : (condSub x m).l3 = bif borrow x.l0 x.l1 x.l2 x.l3 m.l0 m.l1 m.l2 m.l3 then x.l3 else
    (diff x.l0 x.l1 x.l2 x.l3 m.l0 m.l1 m.l2 m.l3).l3 := by
  unfold condSub
  exact select_l3 _ _ _

theorem subFrom_reg (s : State) (d : Reg) (v k : Nat) : (s.subFrom d v k).reg d = (s.reg d + 2 * W64 - v - k) % W64 := if_pos rfl

theorem addTo_reg (s : State) (d : Reg) (v k : Nat) : (s.addTo d v k).reg d = (s.reg d + v + k) % W64 := if_pos rfl

/-- What `r8` to `r15` and the carry flag hold. -/
structure Holds (s : State) (a0 a1 a2 a3 a4 a5 a6 a7 : Nat) (f : Bool) : Prop where
  r8 : s.reg .r8 = a0
  r9 : s.reg .r9 = a1
  r10 : s.reg .r10 = a2
  r11 : s.reg .r11 = a3
  r12 : s.reg .r12 = a4
  r13 : s.reg .r13 = a5
  r14 : s.reg .r14 = a6
  r15 : s.reg .r15 = a7
  cf : s.cf = f

variable {e : Env} {s : State} {a0 a1 a2 a3 a4 a5 a6 a7 v : Nat} {f : Bool} {x : Operand}

theorem mov_r8 (h : Holds s a0 a1 a2 a3 a4 a5 a6 a7 f) (hx : read e s x = v) :
    Holds (exec e s (.mov .r8 x)) v a1 a2 a3 a4 a5 a6 a7 f := by
  obtain ⟨rfl, rfl, rfl, rfl, rfl, rfl, rfl, rfl, rfl⟩ := h
  subst hx
  exact ⟨rfl, rfl, rfl, rfl, rfl, rfl, rfl, rfl, rfl⟩

theorem sub_r8 (h : Holds s a0 a1 a2 a3 a4 a5 a6 a7 f) (hx : read e s x = v) :
    Holds (exec e s (.sub .r8 x)) ((a0 + 2 * W64 - v - 0) % W64) a1 a2 a3 a4 a5 a6 a7 (decide (a0 < v + 0)) := by
  obtain ⟨rfl, rfl, rfl, rfl, rfl, rfl, rfl, rfl, rfl⟩ := h
  subst hx
  exact ⟨subFrom_reg _ _ _ _, rfl, rfl, rfl, rfl, rfl, rfl, rfl, rfl⟩

theorem add_r8 (h : Holds s a0 a1 a2 a3 a4 a5 a6 a7 f) (hx : read e s x = v) :
    Holds (exec e s (.add .r8 x)) ((a0 + v + 0) % W64) a1 a2 a3 a4 a5 a6 a7 (decide (W64 ≤ a0 + v + 0)) := by
  obtain ⟨rfl, rfl, rfl, rfl, rfl, rfl, rfl, rfl, rfl⟩ := h
  subst hx
  exact ⟨addTo_reg _ _ _ _, rfl, rfl, rfl, rfl, rfl, rfl, rfl, rfl⟩

theorem cmovc_r8 (h : Holds s a0 a1 a2 a3 a4 a5 a6 a7 f) (hx : read e s x = v) :
    Holds (exec e s (.cmovc .r8 x)) (bif f then v else a0) a1 a2 a3 a4 a5 a6 a7 f := by
  obtain ⟨rfl, rfl, rfl, rfl, rfl, rfl, rfl, rfl, rfl⟩ := h
  subst hx
  simp only [exec]
  cases hf : s.cf
  · exact ⟨rfl, rfl, rfl, rfl, rfl, rfl, rfl, rfl, hf⟩
  · exact ⟨rfl, rfl, rfl, rfl, rfl, rfl, rfl, rfl, hf⟩

theorem mov_r9 (h : Holds s a0 a1 a2 a3 a4 a5 a6 a7 f) (hx : read e s x = v) :
    Holds (exec e s (.mov .r9 x)) a0 v a2 a3 a4 a5 a6 a7 f := by
  obtain ⟨rfl, rfl, rfl, rfl, rfl, rfl, rfl, rfl, rfl⟩ := h
  subst hx
  exact ⟨rfl, rfl, rfl, rfl, rfl, rfl, rfl, rfl, rfl⟩

theorem sbb_r9 (h : Holds s a0 a1 a2 a3 a4 a5 a6 a7 f) (hx : read e s x = v) :
    Holds (exec e s (.sbb .r9 x)) a0 ((a1 + 2 * W64 - v - f.toNat) % W64) a2 a3 a4 a5 a6 a7 (decide (a1 < v + f.toNat)) := by
  obtain ⟨rfl, rfl, rfl, rfl, rfl, rfl, rfl, rfl, rfl⟩ := h
  subst hx
  exact ⟨rfl, subFrom_reg _ _ _ _, rfl, rfl, rfl, rfl, rfl, rfl, rfl⟩

theorem adcx_r9 (h : Holds s a0 a1 a2 a3 a4 a5 a6 a7 f) (hx : read e s x = v) :
    Holds (exec e s (.adcx .r9 x)) a0 ((a1 + v + f.toNat) % W64) a2 a3 a4 a5 a6 a7 (decide (W64 ≤ a1 + v + f.toNat)) := by
  obtain ⟨rfl, rfl, rfl, rfl, rfl, rfl, rfl, rfl, rfl⟩ := h
  subst hx
  exact ⟨rfl, addTo_reg _ _ _ _, rfl, rfl, rfl, rfl, rfl, rfl, rfl⟩

theorem cmovc_r9 (h : Holds s a0 a1 a2 a3 a4 a5 a6 a7 f) (hx : read e s x = v) :
    Holds (exec e s (.cmovc .r9 x)) a0 (bif f then v else a1) a2 a3 a4 a5 a6 a7 f := by
  obtain ⟨rfl, rfl, rfl, rfl, rfl, rfl, rfl, rfl, rfl⟩ := h
  subst hx
  simp only [exec]
  cases hf : s.cf
  · exact ⟨rfl, rfl, rfl, rfl, rfl, rfl, rfl, rfl, hf⟩
  · exact ⟨rfl, rfl, rfl, rfl, rfl, rfl, rfl, rfl, hf⟩

theorem mov_r10 (h : Holds s a0 a1 a2 a3 a4 a5 a6 a7 f) (hx : read e s x = v) :
    Holds (exec e s (.mov .r10 x)) a0 a1 v a3 a4 a5 a6 a7 f := by
  obtain ⟨rfl, rfl, rfl, rfl, rfl, rfl, rfl, rfl, rfl⟩ := h
  subst hx
  exact ⟨rfl, rfl, rfl, rfl, rfl, rfl, rfl, rfl, rfl⟩

theorem sbb_r10 (h : Holds s a0 a1 a2 a3 a4 a5 a6 a7 f) (hx : read e s x = v) :
    Holds (exec e s (.sbb .r10 x)) a0 a1 ((a2 + 2 * W64 - v - f.toNat) % W64) a3 a4 a5 a6 a7 (decide (a2 < v + f.toNat)) := by
  obtain ⟨rfl, rfl, rfl, rfl, rfl, rfl, rfl, rfl, rfl⟩ := h
  subst hx
  exact ⟨rfl, rfl, subFrom_reg _ _ _ _, rfl, rfl, rfl, rfl, rfl, rfl⟩

theorem adcx_r10 (h : Holds s a0 a1 a2 a3 a4 a5 a6 a7 f) (hx : read e s x = v) :
    Holds (exec e s (.adcx .r10 x)) a0 a1 ((a2 + v + f.toNat) % W64) a3 a4 a5 a6 a7 (decide (W64 ≤ a2 + v + f.toNat)) := by
  obtain ⟨rfl, rfl, rfl, rfl, rfl, rfl, rfl, rfl, rfl⟩ := h
  subst hx
  exact ⟨rfl, rfl, addTo_reg _ _ _ _, rfl, rfl, rfl, rfl, rfl, rfl⟩

theorem cmovc_r10 (h : Holds s a0 a1 a2 a3 a4 a5 a6 a7 f) (hx : read e s x = v) :
    Holds (exec e s (.cmovc .r10 x)) a0 a1 (bif f then v else a2) a3 a4 a5 a6 a7 f := by
  obtain ⟨rfl, rfl, rfl, rfl, rfl, rfl, rfl, rfl, rfl⟩ := h
  subst hx
  simp only [exec]
  cases hf : s.cf
  · exact ⟨rfl, rfl, rfl, rfl, rfl, rfl, rfl, rfl, hf⟩
  · exact ⟨rfl, rfl, rfl, rfl, rfl, rfl, rfl, rfl, hf⟩

theorem mov_r11 (h : Holds s a0 a1 a2 a3 a4 a5 a6 a7 f) (hx : read e s x = v) :
    Holds (exec e s (.mov .r11 x)) a0 a1 a2 v a4 a5 a6 a7 f := by
  obtain ⟨rfl, rfl, rfl, rfl, rfl, rfl, rfl, rfl, rfl⟩ := h
  subst hx
  exact ⟨rfl, rfl, rfl, rfl, rfl, rfl, rfl, rfl, rfl⟩

theorem sbb_r11 (h : Holds s a0 a1 a2 a3 a4 a5 a6 a7 f) (hx : read e s x = v) :
    Holds (exec e s (.sbb .r11 x)) a0 a1 a2 ((a3 + 2 * W64 - v - f.toNat) % W64) a4 a5 a6 a7 (decide (a3 < v + f.toNat)) := by
  obtain ⟨rfl, rfl, rfl, rfl, rfl, rfl, rfl, rfl, rfl⟩ := h
  subst hx
  exact ⟨rfl, rfl, rfl, subFrom_reg _ _ _ _, rfl, rfl, rfl, rfl, rfl⟩

theorem adcx_r11 (h : Holds s a0 a1 a2 a3 a4 a5 a6 a7 f) (hx : read e s x = v) :
    Holds (exec e s (.adcx .r11 x)) a0 a1 a2 ((a3 + v + f.toNat) % W64) a4 a5 a6 a7 (decide (W64 ≤ a3 + v + f.toNat)) := by
  obtain ⟨rfl, rfl, rfl, rfl, rfl, rfl, rfl, rfl, rfl⟩ := h
  subst hx
  exact ⟨rfl, rfl, rfl, addTo_reg _ _ _ _, rfl, rfl, rfl, rfl, rfl⟩

theorem cmovc_r11 (h : Holds s a0 a1 a2 a3 a4 a5 a6 a7 f) (hx : read e s x = v) :
    Holds (exec e s (.cmovc .r11 x)) a0 a1 a2 (bif f then v else a3) a4 a5 a6 a7 f := by
  obtain ⟨rfl, rfl, rfl, rfl, rfl, rfl, rfl, rfl, rfl⟩ := h
  subst hx
  simp only [exec]
  cases hf : s.cf
  · exact ⟨rfl, rfl, rfl, rfl, rfl, rfl, rfl, rfl, hf⟩
  · exact ⟨rfl, rfl, rfl, rfl, rfl, rfl, rfl, rfl, hf⟩

theorem mov_r12 (h : Holds s a0 a1 a2 a3 a4 a5 a6 a7 f) (hx : read e s x = v) :
    Holds (exec e s (.mov .r12 x)) a0 a1 a2 a3 v a5 a6 a7 f := by
  obtain ⟨rfl, rfl, rfl, rfl, rfl, rfl, rfl, rfl, rfl⟩ := h
  subst hx
  exact ⟨rfl, rfl, rfl, rfl, rfl, rfl, rfl, rfl, rfl⟩

theorem sub_r12 (h : Holds s a0 a1 a2 a3 a4 a5 a6 a7 f) (hx : read e s x = v) :
    Holds (exec e s (.sub .r12 x)) a0 a1 a2 a3 ((a4 + 2 * W64 - v - 0) % W64) a5 a6 a7 (decide (a4 < v + 0)) := by
  obtain ⟨rfl, rfl, rfl, rfl, rfl, rfl, rfl, rfl, rfl⟩ := h
  subst hx
  exact ⟨rfl, rfl, rfl, rfl, subFrom_reg _ _ _ _, rfl, rfl, rfl, rfl⟩

theorem add_r12 (h : Holds s a0 a1 a2 a3 a4 a5 a6 a7 f) (hx : read e s x = v) :
    Holds (exec e s (.add .r12 x)) a0 a1 a2 a3 ((a4 + v + 0) % W64) a5 a6 a7 (decide (W64 ≤ a4 + v + 0)) := by
  obtain ⟨rfl, rfl, rfl, rfl, rfl, rfl, rfl, rfl, rfl⟩ := h
  subst hx
  exact ⟨rfl, rfl, rfl, rfl, addTo_reg _ _ _ _, rfl, rfl, rfl, rfl⟩

theorem cmovc_r12 (h : Holds s a0 a1 a2 a3 a4 a5 a6 a7 f) (hx : read e s x = v) :
    Holds (exec e s (.cmovc .r12 x)) a0 a1 a2 a3 (bif f then v else a4) a5 a6 a7 f := by
  obtain ⟨rfl, rfl, rfl, rfl, rfl, rfl, rfl, rfl, rfl⟩ := h
  subst hx
  simp only [exec]
  cases hf : s.cf
  · exact ⟨rfl, rfl, rfl, rfl, rfl, rfl, rfl, rfl, hf⟩
  · exact ⟨rfl, rfl, rfl, rfl, rfl, rfl, rfl, rfl, hf⟩

theorem mov_r13 (h : Holds s a0 a1 a2 a3 a4 a5 a6 a7 f) (hx : read e s x = v) :
    Holds (exec e s (.mov .r13 x)) a0 a1 a2 a3 a4 v a6 a7 f := by
  obtain ⟨rfl, rfl, rfl, rfl, rfl, rfl, rfl, rfl, rfl⟩ := h
  subst hx
  exact ⟨rfl, rfl, rfl, rfl, rfl, rfl, rfl, rfl, rfl⟩

theorem sbb_r13 (h : Holds s a0 a1 a2 a3 a4 a5 a6 a7 f) (hx : read e s x = v) :
    Holds (exec e s (.sbb .r13 x)) a0 a1 a2 a3 a4 ((a5 + 2 * W64 - v - f.toNat) % W64) a6 a7 (decide (a5 < v + f.toNat)) := by
  obtain ⟨rfl, rfl, rfl, rfl, rfl, rfl, rfl, rfl, rfl⟩ := h
  subst hx
  exact ⟨rfl, rfl, rfl, rfl, rfl, subFrom_reg _ _ _ _, rfl, rfl, rfl⟩

theorem adcx_r13 (h : Holds s a0 a1 a2 a3 a4 a5 a6 a7 f) (hx : read e s x = v) :
    Holds (exec e s (.adcx .r13 x)) a0 a1 a2 a3 a4 ((a5 + v + f.toNat) % W64) a6 a7 (decide (W64 ≤ a5 + v + f.toNat)) := by
  obtain ⟨rfl, rfl, rfl, rfl, rfl, rfl, rfl, rfl, rfl⟩ := h
  subst hx
  exact ⟨rfl, rfl, rfl, rfl, rfl, addTo_reg _ _ _ _, rfl, rfl, rfl⟩

theorem cmovc_r13 (h : Holds s a0 a1 a2 a3 a4 a5 a6 a7 f) (hx : read e s x = v) :
    Holds (exec e s (.cmovc .r13 x)) a0 a1 a2 a3 a4 (bif f then v else a5) a6 a7 f := by
  obtain ⟨rfl, rfl, rfl, rfl, rfl, rfl, rfl, rfl, rfl⟩ := h
  subst hx
  simp only [exec]
  cases hf : s.cf
  · exact ⟨rfl, rfl, rfl, rfl, rfl, rfl, rfl, rfl, hf⟩
  · exact ⟨rfl, rfl, rfl, rfl, rfl, rfl, rfl, rfl, hf⟩

theorem mov_r14 (h : Holds s a0 a1 a2 a3 a4 a5 a6 a7 f) (hx : read e s x = v) :
    Holds (exec e s (.mov .r14 x)) a0 a1 a2 a3 a4 a5 v a7 f := by
  obtain ⟨rfl, rfl, rfl, rfl, rfl, rfl, rfl, rfl, rfl⟩ := h
  subst hx
  exact ⟨rfl, rfl, rfl, rfl, rfl, rfl, rfl, rfl, rfl⟩

theorem sbb_r14 (h : Holds s a0 a1 a2 a3 a4 a5 a6 a7 f) (hx : read e s x = v) :
    Holds (exec e s (.sbb .r14 x)) a0 a1 a2 a3 a4 a5 ((a6 + 2 * W64 - v - f.toNat) % W64) a7 (decide (a6 < v + f.toNat)) := by
  obtain ⟨rfl, rfl, rfl, rfl, rfl, rfl, rfl, rfl, rfl⟩ := h
  subst hx
  exact ⟨rfl, rfl, rfl, rfl, rfl, rfl, subFrom_reg _ _ _ _, rfl, rfl⟩

theorem adcx_r14 (h : Holds s a0 a1 a2 a3 a4 a5 a6 a7 f) (hx : read e s x = v) :
    Holds (exec e s (.adcx .r14 x)) a0 a1 a2 a3 a4 a5 ((a6 + v + f.toNat) % W64) a7 (decide (W64 ≤ a6 + v + f.toNat)) := by
  obtain ⟨rfl, rfl, rfl, rfl, rfl, rfl, rfl, rfl, rfl⟩ := h
  subst hx
  exact ⟨rfl, rfl, rfl, rfl, rfl, rfl, addTo_reg _ _ _ _, rfl, rfl⟩

theorem cmovc_r14 (h : Holds s a0 a1 a2 a3 a4 a5 a6 a7 f) (hx : read e s x = v) :
    Holds (exec e s (.cmovc .r14 x)) a0 a1 a2 a3 a4 a5 (bif f then v else a6) a7 f := by
  obtain ⟨rfl, rfl, rfl, rfl, rfl, rfl, rfl, rfl, rfl⟩ := h
  subst hx
  simp only [exec]
  cases hf : s.cf
  · exact ⟨rfl, rfl, rfl, rfl, rfl, rfl, rfl, rfl, hf⟩
  · exact ⟨rfl, rfl, rfl, rfl, rfl, rfl, rfl, rfl, hf⟩

theorem mov_r15 (h : Holds s a0 a1 a2 a3 a4 a5 a6 a7 f) (hx : read e s x = v) :
    Holds (exec e s (.mov .r15 x)) a0 a1 a2 a3 a4 a5 a6 v f := by
  obtain ⟨rfl, rfl, rfl, rfl, rfl, rfl, rfl, rfl, rfl⟩ := h
  subst hx
  exact ⟨rfl, rfl, rfl, rfl, rfl, rfl, rfl, rfl, rfl⟩

theorem sbb_r15 (h : Holds s a0 a1 a2 a3 a4 a5 a6 a7 f) (hx : read e s x = v) :
    Holds (exec e s (.sbb .r15 x)) a0 a1 a2 a3 a4 a5 a6 ((a7 + 2 * W64 - v - f.toNat) % W64) (decide (a7 < v + f.toNat)) := by
  obtain ⟨rfl, rfl, rfl, rfl, rfl, rfl, rfl, rfl, rfl⟩ := h
  subst hx
  exact ⟨rfl, rfl, rfl, rfl, rfl, rfl, rfl, subFrom_reg _ _ _ _, rfl⟩

theorem adcx_r15 (h : Holds s a0 a1 a2 a3 a4 a5 a6 a7 f) (hx : read e s x = v) :
    Holds (exec e s (.adcx .r15 x)) a0 a1 a2 a3 a4 a5 a6 ((a7 + v + f.toNat) % W64) (decide (W64 ≤ a7 + v + f.toNat)) := by
  obtain ⟨rfl, rfl, rfl, rfl, rfl, rfl, rfl, rfl, rfl⟩ := h
  subst hx
  exact ⟨rfl, rfl, rfl, rfl, rfl, rfl, rfl, addTo_reg _ _ _ _, rfl⟩

theorem cmovc_r15 (h : Holds s a0 a1 a2 a3 a4 a5 a6 a7 f) (hx : read e s x = v) :
    Holds (exec e s (.cmovc .r15 x)) a0 a1 a2 a3 a4 a5 a6 (bif f then v else a7) f := by
  obtain ⟨rfl, rfl, rfl, rfl, rfl, rfl, rfl, rfl, rfl⟩ := h
  subst hx
  simp only [exec]
  cases hf : s.cf
  · exact ⟨rfl, rfl, rfl, rfl, rfl, rfl, rfl, rfl, hf⟩
  · exact ⟨rfl, rfl, rfl, rfl, rfl, rfl, rfl, rfl, hf⟩

/-- Subtract the modulus of `r8` to `r11` into `r12` to `r15`. -/
def subHigh : List Instr :=
  [.mov .r12 (.reg .r8), .mov .r13 (.reg .r9), .mov .r14 (.reg .r10), .mov .r15 (.reg .r11),
   .sub .r12 (.mem .m 0), .sbb .r13 (.mem .m 1), .sbb .r14 (.mem .m 2), .sbb .r15 (.mem .m 3),
   .cmovc .r12 (.reg .r8), .cmovc .r13 (.reg .r9), .cmovc .r14 (.reg .r10), .cmovc .r15 (.reg .r11)]

theorem subHigh_spec (h : Holds s a0 a1 a2 a3 a4 a5 a6 a7 f) {m : Limbs} (h0 : e.m 0 = m.l0) (h1 : e.m 1 = m.l1) (h2 : e.m 2 = m.l2)
    (h3 : e.m 3 = m.l3) : ∃ f', Holds (run e subHigh s) a0 a1 a2 a3 (condSub ⟨a0, a1, a2, a3⟩ m).l0 (condSub ⟨a0, a1, a2, a3⟩ m).l1 (condSub ⟨a0, a1, a2, a3⟩ m).l2 (condSub ⟨a0, a1, a2, a3⟩ m).l3 f' := by
  simp only [subHigh, run_cons, run_nil]
  replace h := mov_r12 (e := e) (x := .reg .r8) h h.r8
  replace h := mov_r13 (e := e) (x := .reg .r9) h h.r9
  replace h := mov_r14 (e := e) (x := .reg .r10) h h.r10
  replace h := mov_r15 (e := e) (x := .reg .r11) h h.r11
  replace h := sub_r12 (e := e) (x := .mem .m 0) h h0
  replace h := sbb_r13 (e := e) (x := .mem .m 1) h h1
  replace h := sbb_r14 (e := e) (x := .mem .m 2) h h2
  replace h := sbb_r15 (e := e) (x := .mem .m 3) h h3
  replace h := cmovc_r12 (e := e) (x := .reg .r8) h h.r8
  replace h := cmovc_r13 (e := e) (x := .reg .r9) h h.r9
  replace h := cmovc_r14 (e := e) (x := .reg .r10) h h.r10
  replace h := cmovc_r15 (e := e) (x := .reg .r11) h h.r11
  obtain ⟨r8, r9, r10, r11, r12, r13, r14, r15, cf⟩ := h
  refine ⟨_, r8, r9, r10, r11, r12.trans ?_, r13.trans ?_, r14.trans ?_, r15.trans ?_, cf⟩
  · rw [condSub_l0]
    simp only [borrow, diff]
  · rw [condSub_l1]
    simp only [borrow, diff]
  · rw [condSub_l2]
    simp only [borrow, diff]
  · rw [condSub_l3]
    simp only [borrow, diff]

/-- Subtract the modulus of `r12` to `r15` into `r8` to `r11`. -/
def subLow : List Instr :=
  [.mov .r8 (.reg .r12), .mov .r9 (.reg .r13), .mov .r10 (.reg .r14), .mov .r11 (.reg .r15),
   .sub .r8 (.mem .m 0), .sbb .r9 (.mem .m 1), .sbb .r10 (.mem .m 2), .sbb .r11 (.mem .m 3),
   .cmovc .r8 (.reg .r12), .cmovc .r9 (.reg .r13), .cmovc .r10 (.reg .r14), .cmovc .r11 (.reg .r15)]

theorem subLow_spec (h : Holds s a0 a1 a2 a3 a4 a5 a6 a7 f) {m : Limbs} (h0 : e.m 0 = m.l0) (h1 : e.m 1 = m.l1) (h2 : e.m 2 = m.l2)
    (h3 : e.m 3 = m.l3) : ∃ f', Holds (run e subLow s) (condSub ⟨a4, a5, a6, a7⟩ m).l0 (condSub ⟨a4, a5, a6, a7⟩ m).l1 (condSub ⟨a4, a5, a6, a7⟩ m).l2 (condSub ⟨a4, a5, a6, a7⟩ m).l3 a4 a5 a6 a7 f' := by
  simp only [subLow, run_cons, run_nil]
  replace h := mov_r8 (e := e) (x := .reg .r12) h h.r12
  replace h := mov_r9 (e := e) (x := .reg .r13) h h.r13
  replace h := mov_r10 (e := e) (x := .reg .r14) h h.r14
  replace h := mov_r11 (e := e) (x := .reg .r15) h h.r15
  replace h := sub_r8 (e := e) (x := .mem .m 0) h h0
  replace h := sbb_r9 (e := e) (x := .mem .m 1) h h1
  replace h := sbb_r10 (e := e) (x := .mem .m 2) h h2
  replace h := sbb_r11 (e := e) (x := .mem .m 3) h h3
  replace h := cmovc_r8 (e := e) (x := .reg .r12) h h.r12
  replace h := cmovc_r9 (e := e) (x := .reg .r13) h h.r13
  replace h := cmovc_r10 (e := e) (x := .reg .r14) h h.r14
  replace h := cmovc_r11 (e := e) (x := .reg .r15) h h.r15
  obtain ⟨r8, r9, r10, r11, r12, r13, r14, r15, cf⟩ := h
  refine ⟨_, r8.trans ?_, r9.trans ?_, r10.trans ?_, r11.trans ?_, r12, r13, r14, r15, cf⟩
  · rw [condSub_l0]
    simp only [borrow, diff]
  · rw [condSub_l1]
    simp only [borrow, diff]
  · rw [condSub_l2]
    simp only [borrow, diff]
  · rw [condSub_l3]
    simp only [borrow, diff]

end Verif.Asm
