import Verif.Lemmas.EccChip
import Verif.Lemmas.GadgetSum
import Verif.Model.EccMul

/-! Double-and-add with incomplete addition. -/

namespace Verif.Lemmas.Ecc

open Verif.Gadget Verif.Spec.Gadget Verif.Spec Verif.Spec.Ecc Verif.Lemmas.Gadget
open Verif.FloorPlanner (Call)

variable {F : Type} [Field F] [DecidableEq F] {b : F}

/-- One row of double-and-add. -/
theorem double_add {A S : Pt b} (hA : A ≠ 0) (hS : S ≠ 0) (h1 : S ≠ A) (h2 : S ≠ -A) (h3 : A + S ≠ -A) {l1 l2 x' y' : F}
    (hy : 2 * (coords A).2 = (l1 + l2) * ((coords A).1 - (l1 ^ 2 - (coords A).1 - (coords S).1)))
    (e1 : l1 * ((coords A).1 - (coords S).1) = (coords A).2 - (coords S).2)
    (e2 : l2 ^ 2 - x' - (l1 ^ 2 - (coords A).1 - (coords S).1) - (coords A).1 = 0)
    (e3 : l2 * ((coords A).1 - x') - (coords A).2 - y' = 0) : (x', y') = coords (A + (A + S)) := by
  have hx : (coords A).1 ≠ (coords S).1 := fun e => (same_x hA hS e).elim h1 h2
  have hR := coords_add hA hS hx (l := l1) (by linear_combination -e1)
  have hR0 : A + S ≠ 0 := fun e => h2 (eq_neg_of_add_eq_zero_right e)
  have hR1 : (coords (A + S)).1 = l1 ^ 2 - (coords A).1 - (coords S).1 := by rw [hR]
  have hR2 : (coords (A + S)).2 = l1 * ((coords A).1 - (l1 ^ 2 - (coords A).1 - (coords S).1)) - (coords A).2 := by rw [hR]
  have hx' : (coords A).1 ≠ (coords (A + S)).1 := fun e =>
    (same_x hA hR0 e).elim (fun e => hS (by simpa using e)) h3
  rw [coords_add hA hR0 hx' (l := l2) (by rw [hR1, hR2]; linear_combination hy), hR1, Prod.mk.injEq]
  have hx1 : x' = l2 ^ 2 - (coords A).1 - (l1 ^ 2 - (coords A).1 - (coords S).1) := by linear_combination -e2
  refine ⟨hx1, ?_⟩
  rw [← hx1]
  linear_combination -e3

/-- The equations of one row. -/
structure Row (px py xa ya za l1 l2 xn yn zn : F) : Prop where
  bit : zn - za * 2 = 0 ∨ zn - za * 2 = 1
  y : 2 * ya = (l1 + l2) * (xa - (l1 ^ 2 - xa - px))
  gradient1 : l1 * (xa - px) - ya + ((zn - za * 2) * 2 - 1) * py = 0
  secant : l2 ^ 2 - xn - (l1 ^ 2 - xa - px) - xa = 0
  gradient2 : l2 * (xa - xn) - ya - yn = 0

/-- A multiple of the base and the base added or subtracted are no exceptional case. -/
theorem row_point {B : Pt b} {q c : Nat} (free : ∀ m, 0 < m → m < q → m • B ≠ 0) (h2 : 2 ≤ c) (hq : 2 * c + 1 < q)
    {za l1 l2 xn yn zn : F}
    (h : Row (coords B).1 (coords B).2 (coords (c • B)).1 (coords (c • B)).2 za l1 l2 xn yn zn) :
    ∃ k : Nat, k ≤ 1 ∧ zn = za * 2 + k ∧ (xn, yn) = coords ((2 * c + 2 * k - 1) • B) := by
  have hB : B ≠ 0 := by simpa using free 1 one_pos (by omega)
  have hA := free c (by omega) (by omega)
  obtain ⟨d, rfl⟩ : ∃ d, c = d + 1 := ⟨c - 1, by omega⟩
  have n1 : B ≠ (d + 1) • B := fun e => free d (by omega) (by omega) (by
    rw [add_nsmul, one_nsmul] at e; simpa using e.symm)
  have n2 : B ≠ -((d + 1) • B) := fun e => free (d + 2) (by omega) (by omega) (by
    rw [show d + 2 = (d + 1) + 1 from rfl, add_nsmul _ (d + 1) 1, one_nsmul]
    nth_rewrite 2 [e]; simp)
  rcases h.bit with h0 | h0
  · refine ⟨0, by omega, by linear_combination h0, ?_⟩
    have hS : -B ≠ 0 := neg_ne_zero.2 hB
    have e : (2 * (d + 1) + 2 * 0 - 1) • B = (d + 1) • B + ((d + 1) • B + -B) := by
      rw [show 2 * (d + 1) + 2 * 0 - 1 = (d + 1) + d by omega, add_nsmul _ (d + 1) d]
      congr 1
      rw [add_nsmul, one_nsmul]; simp
    rw [e]
    have g1 := h.gradient1
    rw [h0] at g1
    refine double_add hA hS (fun e => n2 (by rw [← e, neg_neg])) (fun e => n1 (neg_injective e)) ?_
      (l1 := l1) (l2 := l2) ?_ ?_ ?_ h.gradient2
    · intro e
      refine free (2 * d + 1) (by omega) (by omega) ?_
      rw [show 2 * d + 1 = d + (d + 1) by omega, add_nsmul]
      have : (d + 1) • B + -B = d • B := by rw [add_nsmul, one_nsmul]; simp
      rw [← this, e]; simp
    · rw [coords_neg]; exact h.y
    · rw [coords_neg]; linear_combination g1
    · rw [coords_neg]; exact h.secant
  · refine ⟨1, le_refl _, by push_cast; linear_combination h0, ?_⟩
    have e : (2 * (d + 1) + 2 * 1 - 1) • B = (d + 1) • B + ((d + 1) • B + B) := by
      rw [show 2 * (d + 1) + 2 * 1 - 1 = (d + 1) + ((d + 1) + 1) by omega, add_nsmul _ (d + 1) (d + 1 + 1),
        add_nsmul _ (d + 1) 1, one_nsmul]
    rw [e]
    have g1 := h.gradient1
    rw [h0] at g1
    refine double_add hA hB n1 n2 ?_ (l1 := l1) (l2 := l2) h.y (by linear_combination g1) h.secant h.gradient2
    intro e
    refine free (2 * d + 3) (by omega) (by omega) ?_
    rw [show 2 * d + 3 = ((d + 1) + 1) + (d + 1) by omega, add_nsmul _ (d + 1 + 1), add_nsmul _ (d + 1) 1, one_nsmul, e]
    simp

/-- The multiple of the base after `s` bits that make up `K`. -/
def accScalar (s K : Nat) : Nat := 2 ^ s + 2 * K + 1

theorem loop_points {B : Pt b} {q : Nat} (free : ∀ m, 0 < m → m < q → m • B ≠ 0) : ∀ (n s K : Nat)
    (X Y Z L1 L2 : Nat → F), 3 * 2 ^ (s + n) ≤ q → K < 2 ^ s → (X 0, Y 0) = coords (accScalar s K • B) → Z 0 = K →
    (∀ i < n, Row (coords B).1 (coords B).2 (X i) (Y i) (Z i) (L1 i) (L2 i) (X (i + 1)) (Y (i + 1)) (Z (i + 1))) →
    ∃ K' : Nat, K' < 2 ^ (s + n) ∧ K' / 2 ^ n = K ∧ (X n, Y n) = coords (accScalar (s + n) K' • B) ∧
      ∀ i ≤ n, Z i = ((K' / 2 ^ (n - i) : Nat) : F)
  | 0, s, K, X, Y, Z, L1, L2, _, hK, hX, hZ, _ => ⟨K, hK, by simp, hX, fun i hi => by
      obtain rfl : i = 0 := by omega
      simp [hZ]⟩
  | n + 1, s, K, X, Y, Z, L1, L2, hq, hK, hX, hZ, h => by
    have hpow : 2 ^ (s + (n + 1)) = 2 * 2 ^ n * 2 ^ s := by ring
    have hn : 1 ≤ 2 ^ n := Nat.one_le_two_pow
    have hs : 1 ≤ 2 ^ s := Nat.one_le_two_pow
    have hb : 6 * 2 ^ s ≤ q := by
      refine le_trans ?_ hq
      rw [hpow]
      nlinarith
    have r := h 0 (by omega)
    have hx : X 0 = (coords (accScalar s K • B)).1 := congrArg Prod.fst hX
    have hy : Y 0 = (coords (accScalar s K • B)).2 := congrArg Prod.snd hX
    rw [hx, hy] at r
    obtain ⟨k, hk, hz, hp⟩ := row_point free (by unfold accScalar; omega) (by unfold accScalar; omega) r
    have hc : 2 * accScalar s K + 2 * k - 1 = accScalar (s + 1) (2 * K + k) := by
      unfold accScalar
      rw [pow_succ]; omega
    rw [hc] at hp
    obtain ⟨K', h1, h2, h3, h4⟩ := loop_points free n (s + 1) (2 * K + k) (fun i => X (i + 1)) (fun i => Y (i + 1))
      (fun i => Z (i + 1)) (fun i => L1 (i + 1)) (fun i => L2 (i + 1)) (by rwa [show s + 1 + n = s + (n + 1) by omega])
      (by rw [pow_succ]; omega) hp (by show Z 1 = _; rw [hz, hZ]; push_cast; ring) (fun i hi => h (i + 1) (by omega))
    have h5 : K' / 2 ^ (n + 1) = K := by
      rw [pow_succ, ← Nat.div_div_eq_div_mul, h2]; omega
    refine ⟨K', by rwa [show s + (n + 1) = s + 1 + n by omega], h5, by rwa [show s + (n + 1) = s + 1 + n by omega], ?_⟩
    rintro (_ | i) hi
    · rw [Nat.sub_zero, h5, hZ]
    · rw [show n + 1 - (i + 1) = n - i by omega]
      exact h4 i (by omega)

section chip

variable {chip : Chip F} {table : Nat → List F} {w : Content F} {region offset n : Nat} {calls : Calls F} {c : MulIncomplete}

/-- The second coordinate that the cells of a row stand for. -/
def rowY (c : MulIncomplete) (w : Content F) (region : Nat) (row : Int) : F :=
  ((w region (.advice c.da.lambda1) row + w region (.advice c.da.lambda2) row) *
    (w region (.advice c.da.xA) row - (w region (.advice c.da.lambda1) row ^ 2 - w region (.advice c.da.xA) row -
      w region (.advice c.da.xP) row))) * (2 : F)⁻¹

omit [DecidableEq F] in
theorem eval_yA {sel : Selector → Int → Bool} {row rot : Int} :
    (c.yA rot : Verif.Gadget.Expr F).eval sel (w region) row = rowY c w region (row + rot) := by
  simp only [MulIncomplete.yA, DoubleAndAdd.yA2, DoubleAndAdd.xR, eval_scaled, eval_mul, eval_add, eval_sub, eval_advice,
    eval_square, rowY]
  ring

omit [DecidableEq F] in
theorem forLoop_iff (two : (2 : F) ≠ 0) {sel : Selector → Int → Bool} {row : Int} {yNext : Verif.Gadget.Expr F} :
    (∀ e ∈ c.forLoop yNext, e.eval sel (w region) row = 0) ↔
    Row (w region (.advice c.da.xP) row) (w region (.advice c.yP) row) (w region (.advice c.da.xA) row)
      (rowY c w region row) (w region (.advice c.z) (row - 1)) (w region (.advice c.da.lambda1) row)
      (w region (.advice c.da.lambda2) row) (w region (.advice c.da.xA) (row + 1)) (yNext.eval sel (w region) row)
      (w region (.advice c.z) row) := by
  have hy : 2 * rowY c w region row = (w region (.advice c.da.lambda1) row + w region (.advice c.da.lambda2) row) *
      (w region (.advice c.da.xA) row - (w region (.advice c.da.lambda1) row ^ 2 - w region (.advice c.da.xA) row -
      w region (.advice c.da.xP) row)) := by
    unfold rowY
    rw [mul_comm 2, mul_assoc, inv_mul_cancel₀ two, mul_one]
  simp only [MulIncomplete.forLoop, List.forall_mem_cons, List.not_mem_nil, false_imp_iff, implies_true, and_true,
    eval_boolCheck, eval_sub, eval_add, eval_mul, eval_scaled, eval_advice, eval_const, eval_square, eval_yA, DoubleAndAdd.xR,
    add_zero, ← sub_eq_add_neg, ← pow_two]
  constructor
  · rintro ⟨h1, h2, h3, h4⟩
    exact ⟨h1, hy, h2, h3, h4⟩
  · rintro ⟨h1, -, h2, h3, h4⟩
    exact ⟨h1, h2, h3, h4⟩

/-- The second coordinates from row to row, the last of which is a cell of its own. -/
def loopY (c : MulIncomplete) (w : Content F) (region offset n i : Nat) : F :=
  if i < n then rowY c w region ((offset + 1 + i : Nat) : Int) else w region (.advice c.da.lambda1) ((offset + 1 + n : Nat) : Int)

omit [DecidableEq F] in
theorem incomplete_rows (two : (2 : F) ≠ 0) (hn : 0 < n) (hg : ∀ g ∈ (c.chip : Chip F).gates, g ∈ chip.gates)
    (hs : Sat chip table w region calls) (hen : ∀ k ∈ (c.enables n offset : Calls F), k ∈ calls) :
    w region (.advice c.da.lambda1) offset = loopY c w region offset n 0 ∧
    (∀ i < n, w region (.advice c.da.xP) ((offset + 1 + i : Nat) : Int) = w region (.advice c.da.xP) ((offset + 1 : Nat) : Int) ∧
      w region (.advice c.yP) ((offset + 1 + i : Nat) : Int) = w region (.advice c.yP) ((offset + 1 : Nat) : Int)) ∧
    ∀ i < n, Row (w region (.advice c.da.xP) ((offset + 1 : Nat) : Int)) (w region (.advice c.yP) ((offset + 1 : Nat) : Int))
      (w region (.advice c.da.xA) ((offset + 1 + i : Nat) : Int)) (loopY c w region offset n i)
      (w region (.advice c.z) ((offset + i : Nat) : Int)) (w region (.advice c.da.lambda1) ((offset + 1 + i : Nat) : Int))
      (w region (.advice c.da.lambda2) ((offset + 1 + i : Nat) : Int))
      (w region (.advice c.da.xA) ((offset + 1 + (i + 1) : Nat) : Int)) (loopY c w region offset n (i + 1))
      (w region (.advice c.z) ((offset + (i + 1) : Nat) : Int)) := by
  have g1 : (c.qMul1, [Verif.Gadget.Expr.advice c.da.lambda1 0 - c.yA 1]) ∈ chip.gates := hg _ (by simp [MulIncomplete.chip])
  have g2 : (c.qMul2, [Verif.Gadget.Expr.advice c.da.xP 0 - .advice c.da.xP 1, .advice c.yP 0 - .advice c.yP 1] ++
      c.forLoop (c.yA 1)) ∈ chip.gates := hg _ (by simp [MulIncomplete.chip])
  have g3 : (c.qMul3, c.forLoop (Verif.Gadget.Expr.advice c.da.lambda1 1)) ∈ chip.gates := hg _ (by simp [MulIncomplete.chip])
  have n1 : Call.enable c.qMul1 offset ∈ calls := hen _ (by simp [MulIncomplete.enables])
  have n2 : ∀ i, i + 1 < n → Call.enable c.qMul2 (offset + 1 + i) ∈ calls := fun i hi => hen _ (by
    simp only [MulIncomplete.enables, List.cons_append, List.mem_cons, List.mem_append, List.mem_map, List.mem_range]
    exact Or.inr (Or.inl ⟨i, by omega, rfl⟩))
  have n3 : Call.enable c.qMul3 (offset + 1 + (n - 1)) ∈ calls := hen _ (by
    simp only [MulIncomplete.enables, List.cons_append, List.mem_cons, List.mem_append, List.mem_map, List.mem_range]
    rw [show offset + 1 + n - 1 = offset + 1 + (n - 1) by omega]
    simp)
  have hconst : ∀ i < n, w region (.advice c.da.xP) ((offset + 1 + i : Nat) : Int) =
      w region (.advice c.da.xP) ((offset + 1 : Nat) : Int) ∧
      w region (.advice c.yP) ((offset + 1 + i : Nat) : Int) = w region (.advice c.yP) ((offset + 1 : Nat) : Int) := by
    intro i
    induction i with
    | zero => intro _; exact ⟨rfl, rfl⟩
    | succ i ih =>
      intro hi
      obtain ⟨h1, h2⟩ := ih (by omega)
      have e1 := sat_gate hs g2 (e := Verif.Gadget.Expr.advice c.da.xP 0 - .advice c.da.xP 1) (by simp) (n2 i hi)
      have e2 := sat_gate hs g2 (e := Verif.Gadget.Expr.advice c.yP 0 - .advice c.yP 1) (by simp) (n2 i hi)
      simp only [eval_sub, eval_advice, add_zero, sub_eq_zero] at e1 e2
      rw [← h1, ← h2, e1, e2]
      exact ⟨rfl, rfl⟩
  refine ⟨?_, hconst, ?_⟩
  · have := sat_gate hs g1 List.mem_cons_self n1
    rw [eval_sub, eval_advice, eval_yA, add_zero, sub_eq_zero] at this
    rw [this, loopY, if_pos hn]
    push_cast; rfl
  · intro i hi
    rw [← (hconst i hi).1, ← (hconst i hi).2]
    have hz : ((offset + i : Nat) : Int) = ((offset + 1 + i : Nat) : Int) - 1 := by push_cast; ring
    have hz' : ((offset + (i + 1) : Nat) : Int) = ((offset + 1 + i : Nat) : Int) := by push_cast; ring
    have hz'' : ((offset + 1 + (i + 1) : Nat) : Int) = ((offset + 1 + i : Nat) : Int) + 1 := by push_cast; ring
    by_cases hl : i + 1 < n
    · have := (forLoop_iff (c := c) (w := w) (region := region) two).1
        (fun e he => sat_gate hs g2 (e := e) (List.mem_append_right _ he) (n2 i hl))
      rw [eval_yA] at this
      rw [loopY, if_pos hi, loopY, if_pos hl, hz, hz', hz'']
      exact this
    · obtain rfl : i = n - 1 := by omega
      have := (forLoop_iff (c := c) (w := w) (region := region) two).1
        (fun e he => sat_gate hs g3 (e := e) he n3)
      rw [eval_advice] at this
      rw [loopY, if_pos hi, loopY, if_neg hl, hz, hz', hz'', show offset + 1 + n = offset + 1 + (n - 1) + 1 by omega]
      exact this

end chip

section run

variable {w : Content F} {region offset n : Nat} {c : MulIncomplete} {base acc : EccPoint F}

omit [DecidableEq F] in
theorem steps_cells {xP yP : Option F} : ∀ (ks : List (Option Bool)) (row : Nat) (s : MulIncomplete.State F),
    s.xA.cell = ⟨region, row, .advice c.da.xA⟩ →
    (c.steps region xP yP row s ks).2.1.xA.cell = ⟨region, row + ks.length, .advice c.da.xA⟩ ∧
    (c.steps region xP yP row s ks).2.2.length = ks.length ∧
    ∀ i (hi : i < (c.steps region xP yP row s ks).2.2.length),
      (c.steps region xP yP row s ks).2.2[i].cell = ⟨region, row + i, .advice c.z⟩
  | [], row, s, h => ⟨h, rfl, fun i hi => by simp [MulIncomplete.steps] at hi⟩
  | k :: ks, row, s, h => by
    obtain ⟨h1, h2, h3⟩ := steps_cells ks (row + 1) (c.step region row xP yP s k).2 rfl
    refine ⟨?_, ?_, ?_⟩
    · show (c.steps region xP yP (row + 1) (c.step region row xP yP s k).2 ks).2.1.xA.cell = _
      rw [h1, List.length_cons, show row + 1 + ks.length = row + (ks.length + 1) by omega]
    · show (c.steps region xP yP (row + 1) (c.step region row xP yP s k).2 ks).2.2.length + 1 = _
      rw [h2, List.length_cons]
    · rintro (_ | i) hi
      · rfl
      · have hi' : i < (c.steps region xP yP (row + 1) (c.step region row xP yP s k).2 ks).2.2.length :=
          Nat.lt_of_succ_lt_succ hi
        show (c.steps region xP yP (row + 1) (c.step region row xP yP s k).2 ks).2.2[i].cell = _
        rw [h3, show row + 1 + i = row + (i + 1) by omega]

theorem doubleAndAdd_split {bits : List (Option Bool)} {z : Assigned F} {calls : Calls F} {out : EccPoint F}
    {zs : List (Assigned F)} (h : c.doubleAndAdd n region offset base bits acc z = .ok (calls, out, zs)) :
    bits.length = n ∧
    calls = c.enables n offset ++ (copyAdvice region z c.z offset).1 ++ (copyAdvice region acc.x c.da.xA (offset + 1)).1 ++
      (copyAdvice region acc.y c.da.lambda1 offset).1 ++
      (c.steps region base.x.value base.y.value (offset + 1) ⟨(copyAdvice region acc.x c.da.xA (offset + 1)).2, acc.y.value,
        (copyAdvice region z c.z offset).2⟩ bits).1 ++
      [.advice c.da.lambda1 (offset + 1 + n) (c.steps region base.x.value base.y.value (offset + 1)
        ⟨(copyAdvice region acc.x c.da.xA (offset + 1)).2, acc.y.value, (copyAdvice region z c.z offset).2⟩ bits).2.1.yA] ∧
    out.x.cell = ⟨region, offset + 1 + n, .advice c.da.xA⟩ ∧
    out.y.cell = ⟨region, offset + 1 + n, .advice c.da.lambda1⟩ ∧
    zs.length = n ∧ ∀ i (hi : i < zs.length), zs[i].cell = ⟨region, offset + (i + 1), .advice c.z⟩ := by
  obtain ⟨_, h1, h⟩ := bind_ok h
  have hl : bits.length = n := by simpa using assert_ok.1 h1
  split at h
  · cases h
  · simp only [pure, Except.pure, Except.ok.injEq, Prod.mk.injEq] at h
    obtain ⟨rfl, rfl, rfl⟩ := h
    obtain ⟨h2, h3, h4⟩ := steps_cells (region := region) (c := c) (xP := base.x.value) (yP := base.y.value) bits (offset + 1)
      ⟨(copyAdvice region acc.x c.da.xA (offset + 1)).2, acc.y.value, (copyAdvice region z c.z offset).2⟩ rfl
    refine ⟨hl, rfl, ?_, rfl, ?_, ?_⟩
    · rw [← hl]; exact h2
    · rw [← hl]; exact h3
    · intro i hi
      rw [show offset + (i + 1) = offset + 1 + i by omega]
      exact h4 i hi

/-- Double-and-add is sound if the base in the loop is the base. -/
theorem doubleAndAdd_sound {chip : Chip F} {table : Nat → List F} {B : Pt b} {q : Nat} (two : (2 : F) ≠ 0)
    (free : ∀ m, 0 < m → m < q → m • B ≠ 0)
    {bits : List (Option Bool)} {z : Assigned F} {calls all : Calls F} {out : EccPoint F} {zs : List (Assigned F)}
    (hn : 0 < n) (h : c.doubleAndAdd n region offset base bits acc z = .ok (calls, out, zs))
    (hg : ∀ g ∈ (c.chip : Chip F).gates, g ∈ chip.gates) (hs : Sat chip table w region all) (hsub : ∀ k ∈ calls, k ∈ all)
    (hpx : w region (.advice c.da.xP) ((offset + 1 : Nat) : Int) = (coords B).1)
    (hpy : w region (.advice c.yP) ((offset + 1 : Nat) : Int) = (coords B).2)
    {s K : Nat} (hK : K < 2 ^ s) (hq : 3 * 2 ^ (s + n) ≤ q) (hacc : Holds w acc (accScalar s K • B)) (hz : w.at z.cell = K) :
    ∃ K' : Nat, K' < 2 ^ (s + n) ∧ K' / 2 ^ n = K ∧ Holds w out (accScalar (s + n) K' • B) ∧
      zs.length = n ∧ ∀ i (hi : i < zs.length), w.at zs[i].cell = ((K' / 2 ^ (n - (i + 1)) : Nat) : F) := by
  obtain ⟨hl, hcalls, ox, oy, zl, zc⟩ := doubleAndAdd_split h
  have hen : ∀ k ∈ (c.enables n offset : Calls F), k ∈ all := fun k hk => hsub k (by
    rw [hcalls]; simp only [List.mem_append]; tauto)
  obtain ⟨r1, r2, r3⟩ := incomplete_rows two hn hg hs hen
  have cz : w region (.advice c.z) offset = w.at z.cell := sat_copy hs (a := ⟨region, offset, .advice c.z⟩) (hsub _ (by
    rw [hcalls]; simp only [List.mem_append, copyAdvice, List.mem_cons]; tauto))
  have cx : w region (.advice c.da.xA) ((offset + 1 : Nat) : Int) = w.at acc.x.cell :=
    sat_copy hs (a := ⟨region, offset + 1, .advice c.da.xA⟩) (hsub _ (by
      rw [hcalls]; simp only [List.mem_append, copyAdvice, List.mem_cons]; tauto))
  have cy : w region (.advice c.da.lambda1) offset = w.at acc.y.cell :=
    sat_copy hs (a := ⟨region, offset, .advice c.da.lambda1⟩) (hsub _ (by
      rw [hcalls]; simp only [List.mem_append, copyAdvice, List.mem_cons]; tauto))
  rw [hpx, hpy] at r3
  obtain ⟨K', k1, k2, k3, k4⟩ := loop_points free n s K
    (fun i => w region (.advice c.da.xA) ((offset + 1 + i : Nat) : Int)) (loopY c w region offset n)
    (fun i => w region (.advice c.z) ((offset + i : Nat) : Int)) _ _ hq hK
    (by
      show (w region (.advice c.da.xA) ((offset + 1 : Nat) : Int), loopY c w region offset n 0) = _
      rw [← r1, cx, cy]; exact hacc)
    (by show w region (.advice c.z) offset = _; rw [cz, hz]) r3
  refine ⟨K', k1, k2, ?_, zl, ?_⟩
  · show (w.at out.x.cell, w.at out.y.cell) = _
    rw [← k3, ox, oy, loopY, if_neg (lt_irrefl n)]
    rfl
  · intro i hi
    rw [zc, ← k4 (i + 1) (by omega)]
    rfl

end run

end Verif.Lemmas.Ecc
