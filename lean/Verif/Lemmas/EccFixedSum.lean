import Verif.Lemmas.EccFixedKeys
import Verif.Model.EccFixedShort

/-! Multiplication of a fixed point by what is in a running sum. -/

namespace Verif.Lemmas.Ecc

open Verif.Gadget Verif.Spec.Gadget Verif.Spec Verif.Spec.Ecc Verif.Spec.EccFixed Verif.Lemmas.Gadget
open Verif.FloorPlanner (Call)
open Verif.Spec.Pow5 (SatAll FollowsAll)

/-- A running sum among other calls of a region. -/
theorem decompose_within {p : Nat} [Fact p.Prime] {c : RunningSum} {k region offset : Nat} {z0 : Assigned (ZMod p)} {strict : Bool}
    {wordBits n : Nat} {calls all : Calls (ZMod p)} {zs : List (Assigned (ZMod p))} {w : Content (ZMod p)}
    (h0 : z0.cell = ⟨region, offset, .advice c.z⟩)
    (h : c.decompose k region offset z0 strict wordBits n = .ok (calls, zs)) (hsub : ∀ x ∈ calls, x ∈ all)
    (henf : ∀ x ∈ all, Enforced w region x)
    (hgate : ∀ o, Call.enable c.qRangeCheck o ∈ all → (rangeCheck (Verif.Gadget.Expr.advice c.z 0 -
      .scaled (.advice c.z 1) ((2 : ZMod p) ^ k)) (2 ^ k)).eval (enabled all) (w region) (o : Int) = 0) :
    zs.length = n + 1 ∧ (∀ i (hi : i < zs.length), zs[i].cell = ⟨region, offset + i, .advice c.z⟩) ∧
    (∀ i < n, ∃ m : Nat, m < 2 ^ k ∧ w region (.advice c.z) ((offset + i : Nat) : Int) -
      w region (.advice c.z) ((offset + (i + 1) : Nat) : Int) * 2 ^ k = m) ∧
    (strict = true → w region (.advice c.z) ((offset + n : Nat) : Int) = 0) := by
  obtain ⟨_, _, words, hw, _, rfl, hcalls⟩ := decompose_shape h
  refine ⟨by simp [sumCells_length, hw], fun i hi => zs_cells h0 i hi, ?_, ?_⟩
  · intro i hi
    have hmem : Call.enable c.qRangeCheck (offset + i) ∈ calls := by
      rw [hcalls]
      simp only [List.mem_append, List.mem_map, List.mem_range]
      exact Or.inl (Or.inl ⟨i, hi, rfl⟩)
    have := hgate _ (hsub _ hmem)
    rw [eval_rangeCheck _ _ _ _ (by positivity)] at this
    obtain ⟨m, hm, h1⟩ := this
    refine ⟨m, hm, ?_⟩
    rw [← h1]
    simp only [eval_sub, eval_advice, eval_scaled, add_zero]
    push_cast
    rw [add_assoc]
  · intro hstrict
    have hmem : Call.equalConstant (((z0 :: sumCells region c.z offset ((2 : ZMod p) ^ k)⁻¹ 0 z0 words).getLast?).getD
        z0).cell (some 0) ∈ calls := by
      rw [hcalls, hstrict]
      simp
    have := henf _ (hsub _ hmem)
    rw [last_cell h0, hw] at this
    simp only [Enforced, Option.some.injEq] at this
    exact this.symm

/-- What a running sum contains. -/
theorem digits_of {p : Nat} (f : Nat → ZMod p) (d : Nat → Nat) (n : Nat) (h : ∀ i < n, f i - f (i + 1) * 8 = (d i : ZMod p))
    (h0 : f n = 0) : ∀ m ≤ n, f (n - m) = ((∑ j ∈ Finset.range m, d (n - m + j) * 8 ^ j : Nat) : ZMod p)
  | 0, _ => by simpa using h0
  | m + 1, hm => by
    have ih := digits_of f d n h h0 m (by omega)
    have e1 := h (n - (m + 1)) (by omega)
    have e2 : n - (m + 1) + 1 = n - m := by omega
    rw [e2] at e1
    rw [Finset.sum_range_succ', sub_eq_iff_eq_add.1 e1, ih]
    push_cast
    rw [Finset.sum_mul, add_comm]
    congr 1
    · refine Finset.sum_congr rfl fun j _ => ?_
      rw [show n - (m + 1) + (j + 1) = n - m + j by omega, pow_succ]
      ring
    · simp

/-- The word of a running sum. -/
def wordOf (c : MulFixed) : Verif.Gadget.Expr Fp := .advice c.window 0 - .scaled (.advice c.window 1) 8

section sum

variable {c : MulFixed} {w : Content Fp} {start n bits : Nat} {base : FixedBase pallasBase} {B : Pt (5 : Fp)}
  {table : Nat → List Fp} {chip : Chip Fp}

/-- The gates that are used. -/
structure HasGates (c : MulFixed) (chip : Chip Fp) : Prop where
  range : (c.runningSum.qRangeCheck, [rangeCheck (Verif.Gadget.Expr.advice c.runningSum.z 0 -
    .scaled (.advice c.runningSum.z 1) ((2 : Fp) ^ 3)) (2 ^ 3)]) ∈ chip.gates
  coords : (c.runningSum.qRangeCheck, c.coordsCheck (5 : Fp) (wordOf c)) ∈ chip.gates
  add : (c.add.qAdd, c.add.polys) ∈ chip.gates
  inc : ∀ g ∈ (c.addIncomplete.chip : Chip Fp).gates, g ∈ chip.gates

theorem fixed_gates {sup : Chip Fp} (h : c.chip (5 : Fp) = .ok sup) : HasGates c sup ∧ sup.lookups = [] ∧
    ∀ g ∈ sup.gates, g = (c.runningSum.qRangeCheck, [rangeCheck (Verif.Gadget.Expr.advice c.runningSum.z 0 -
      .scaled (.advice c.runningSum.z 1) ((2 : Fp) ^ 3)) (2 ^ 3)]) ∨
      g = (c.runningSum.qRangeCheck, c.coordsCheck (5 : Fp) (wordOf c)) ∨ g = (c.add.qAdd, c.add.polys) ∨
      g ∈ (c.addIncomplete.chip : Chip Fp).gates := by
  unfold MulFixed.chip at h
  obtain ⟨sum, h2, h1⟩ := bind_ok h
  unfold RunningSum.chip at h2
  obtain ⟨_, -, h2⟩ := bind_ok h2
  simp only [pure, Except.pure, Except.ok.injEq] at h1 h2
  subst h2 h1
  refine ⟨⟨by simp, by simp [wordOf], by simp [AddComplete.chip], fun g hg => by simp only [List.mem_append]; tauto⟩, rfl, fun g hg => ?_⟩
  simp only [List.mem_append, List.mem_singleton] at hg
  rcases hg with ((hg | hg) | hg) | hg
  · exact Or.inl hg
  · exact Or.inr (Or.inl hg)
  · right; right; left
    simpa [AddComplete.chip] using hg
  · right; right; right; exact hg

/-- The sum of the windows of a running sum. -/
theorem sum_inner (hc : c.runningSum.z = c.window) (hg : HasGates c chip) (t : TableOf n B base) (hB : B ≠ 0) (hn : 2 ≤ n) (hn' : n ≤ 85)
    {a : Assigned Fp} {c0 c1 : Calls Fp} {zs : List (Assigned Fp)} {ks : List (Option (ZMod vestaBase))} {acc mulB : EccPoint Fp}
    (h0 : c.runningSum.copy 3 start 0 a true bits n = .ok (c0, zs))
    (h1 : c.inner n start 0 base c.runningSum.qRangeCheck ks = .ok (c1, acc, mulB))
    (hs : Sat chip table w start (c0 ++ c1)) :
    zs.length = n + 1 ∧ ∃ d : Nat → Nat, (∀ i, d i < 8) ∧ w.at a.cell = ((∑ i ∈ Finset.range n, d i * 8 ^ i : Nat) : Fp) ∧
      (∀ i (hi : i < zs.length), w.at zs[i].cell = ((∑ j ∈ Finset.range (n - i), d (i + j) * 8 ^ j : Nat) : Fp)) ∧
      Holds w acc ((∑ i ∈ Finset.range (n - 1), (d i + 2) * 8 ^ i) • B) ∧
      Holds w mulB (windowPoint n B (n - 1) (d (n - 1))) := by
  obtain ⟨more, h2, rfl⟩ := copy_split h0
  set all := ([.advice c.runningSum.z 0 a.value, .equal ⟨start, 0, .advice c.runningSum.z⟩ a.cell] ++ more) ++ c1 with hall
  have hcopy : w start (.advice c.runningSum.z) ((0 : Nat) : Int) = w.at a.cell :=
    sat_copy hs (a := ⟨start, 0, .advice c.runningSum.z⟩) (by simp [hall])
  obtain ⟨e1, e2, e3, e4⟩ := decompose_within (all := all) rfl h2 (fun x hx => by simp [hall, hx]) hs.enforced
    (fun o ho => sat_gate hs hg.range (List.mem_singleton.2 rfl) ho)
  have hdig : ∀ i : Nat, ∃ k : Nat, k < 8 ∧ (i < n → w start (.advice c.window) ((0 + i : Nat) : Int) -
      w start (.advice c.window) ((0 + (i + 1) : Nat) : Int) * 8 = (k : Fp)) := by
    intro i
    by_cases hi : i < n
    · obtain ⟨m, hm, e⟩ := e3 i hi
      refine ⟨m, by simpa using hm, fun _ => ?_⟩
      rw [← hc, ← e]
      norm_num
    · exact ⟨0, by norm_num, fun h => absurd h hi⟩
  choose d hd hdw using hdig
  have hsum := digits_of (fun i => w start (.advice c.window) ((0 + i : Nat) : Int)) d n hdw (by
    have := e4 rfl
    rw [hc] at this
    exact this)
  have hat : ∀ i ≤ n, w start (.advice c.window) ((0 + i : Nat) : Int) =
      ((∑ j ∈ Finset.range (n - i), d (i + j) * 8 ^ j : Nat) : Fp) := by
    intro i hi
    have := hsum (n - i) (by omega)
    simp only [Nat.sub_sub_self hi] at this
    exact this
  obtain ⟨i1, i2⟩ := inner_sound (all := all) (w := w) (word := wordOf c) t hB hn hn' h1
      (fun k hk => by simp [hall, hk]) hs.enforced
      (fun o ho g hg' e he => by
        have hs' : g.1 = c.addIncomplete.qAddIncomplete := by
          simp only [AddIncomplete.chip, List.mem_singleton] at hg'; rw [hg']
        exact sat_gate hs (hg.inc g hg') he (by rw [hs']; exact ho))
      (fun o ho e he => sat_gate hs hg.coords he ho) d hd
      (fun i hi => by
        simp only [wordOf, eval_sub, eval_advice, eval_scaled, add_zero]
        rw [← hdw i hi, show ((0 + i : Nat) : Int) + 1 = ((0 + (i + 1) : Nat) : Int) by push_cast; ring])
  refine ⟨e1, d, hd, ?_, fun i hi => ?_, i1, i2⟩
  · rw [← hcopy, hc]
    simpa using hat 0 (by omega)
  · rw [e2 i hi, hc]
    exact hat i (by omega)

end sum

section short

variable {c : MulShort} {w : Content Fp} {start : Nat} {base : FixedBase pallasBase} {B : Pt (5 : Fp)}
  {magnitude sign : Assigned Fp} {table : Nat → List Fp} {chip : Chip Fp}

/-- The gate of the sign. -/
def shortPolys (c : MulFixed) : List (Verif.Gadget.Expr Fp) :=
  [boolCheck (.advice c.u 0), (Verif.Gadget.Expr.advice c.window 0).square - .const 1,
    (Verif.Gadget.Expr.advice c.add.yP 0 - .advice c.add.yQR 0) * (.advice c.add.yP 0 + .advice c.add.yQR 0),
    .advice c.window 0 * .advice c.add.yP 0 - .advice c.add.yQR 0]

theorem short_gates (h : c.chip (5 : Fp) = .ok chip) : HasGates c.sup chip ∧ chip.lookups = [] ∧
    (c.qShort, shortPolys c.sup) ∈ chip.gates ∧
    ∀ g ∈ chip.gates, g = (c.sup.runningSum.qRangeCheck, [rangeCheck (Verif.Gadget.Expr.advice c.sup.runningSum.z 0 -
      .scaled (.advice c.sup.runningSum.z 1) ((2 : Fp) ^ 3)) (2 ^ 3)]) ∨
      g = (c.sup.runningSum.qRangeCheck, c.sup.coordsCheck (5 : Fp) (wordOf c.sup)) ∨ g = (c.sup.add.qAdd, c.sup.add.polys) ∨
      g ∈ (c.sup.addIncomplete.chip : Chip Fp).gates ∨ g = (c.qShort, shortPolys c.sup) := by
  unfold MulShort.chip at h
  obtain ⟨sup, h1, h⟩ := bind_ok h
  obtain ⟨g1, g2, g3⟩ := fixed_gates h1
  simp only [pure, Except.pure, Except.ok.injEq] at h
  subst h
  refine ⟨⟨?_, ?_, ?_, ?_⟩, g2, ?_, fun g hg => ?_⟩
  · exact List.mem_append_left _ g1.range
  · exact List.mem_append_left _ g1.coords
  · exact List.mem_append_left _ g1.add
  · exact fun g hg => List.mem_append_left _ (g1.inc g hg)
  · exact List.mem_append_right _ (List.mem_singleton.2 rfl)
  · rcases List.mem_append.1 hg with hg | hg
    · rcases g3 g hg with h | h | h | h
      · exact Or.inl h
      · exact Or.inr (Or.inl h)
      · exact Or.inr (Or.inr (Or.inl h))
      · exact Or.inr (Or.inr (Or.inr (Or.inl h)))
    · exact Or.inr (Or.inr (Or.inr (Or.inr (List.mem_singleton.1 hg))))

/-- The calls of the second region. -/
def shortCalls (c : MulShort) (start : Nat) (sign z21 : Assigned Fp) (acc mulB : EccPoint Fp) (y : Option Fp) : Calls Fp :=
  (c.sup.add.assign (start + 1) mulB acc 0).1 ++ (copyAdvice (start + 1) sign c.sup.window 1).1 ++
    (copyAdvice (start + 1) z21 c.sup.u 1).1 ++ [.enable c.qShort 1] ++ [.advice c.sup.add.yP 1 y]

theorem shortCalls_add (sign z21 : Assigned Fp) (acc mulB : EccPoint Fp) (y : Option Fp) :
    ∀ x ∈ (c.sup.add.assign (start + 1) mulB acc 0).1, x ∈ shortCalls c start sign z21 acc mulB y := fun _ hx =>
  List.mem_append_left _ (List.mem_append_left _ (List.mem_append_left _ (List.mem_append_left _ hx)))

/-- The second coordinate with its sign. -/
def signed (s y : Option Fp) : Option Fp := do
  let s ← s
  let y ← y
  return if s = -1 then -y else y

theorem short_split {regions : List (Calls Fp)} {out : EccPoint Fp} {zs : List (Assigned Fp)}
    (h : c.assign (q := vestaBase) start magnitude sign base = .ok (regions, out, zs)) : ∃ c0 ks c1 acc mulB z21,
      c.sup.runningSum.copy 3 start 0 magnitude true 64 22 = .ok (c0, zs) ∧ MulFixed.sumWindows (q := vestaBase) zs = .ok ks ∧
      c.sup.inner 22 start 0 base c.sup.runningSum.qRangeCheck ks = .ok (c1, acc, mulB) ∧ zs[21]? = some z21 ∧
      regions = [c0 ++ c1, shortCalls c start sign z21 acc mulB (signed sign.value (c.sup.add.assign (start + 1) mulB acc 0).2.y.value)] ∧
      out = ⟨(c.sup.add.assign (start + 1) mulB acc 0).2.x, ⟨⟨start + 1, 1, .advice c.sup.add.yP⟩,
        signed sign.value (c.sup.add.assign (start + 1) mulB acc 0).2.y.value⟩⟩ := by
  unfold MulShort.assign at h
  obtain ⟨⟨c0, zs'⟩, h1, h⟩ := bind_ok h
  obtain ⟨ks, h2, h⟩ := bind_ok h
  obtain ⟨⟨c1, acc, mulB⟩, h3, h⟩ := bind_ok h
  simp only at h h2
  cases hz : zs'[21]? with
  | none => rw [hz] at h; cases h
  | some z21 =>
    rw [hz] at h
    simp only [pure, Except.pure, Except.ok.injEq, Prod.mk.injEq] at h
    obtain ⟨e1, e2, rfl⟩ := h
    exact ⟨c0, ks, c1, acc, mulB, z21, h1, h2, h3, hz, e1.symm, e2.symm⟩

/-- Multiplication by a signed number of 64 bits. -/
theorem short_sound (hc : c.sup.runningSum.z = c.sup.window) (hchip : c.chip (5 : Fp) = .ok chip) (t : TableOf 22 B base) (hB : B ≠ 0)
    {regions : List (Calls Fp)} {out : EccPoint Fp} {zs : List (Assigned Fp)}
    (h : c.assign (q := vestaBase) start magnitude sign base = .ok (regions, out, zs))
    (hs : SatAll chip table w start regions) : (w.at magnitude.cell).val < 2 ^ 64 ∧
      (w.at sign.cell = 1 ∧ Holds w out ((w.at magnitude.cell).val • B) ∨
        w.at sign.cell = -1 ∧ Holds w out (-((w.at magnitude.cell).val • B))) := by
  obtain ⟨c0, ks, c1, acc, mulB, z21, h1, -, h3, h4, rfl, rfl⟩ := short_split h
  obtain ⟨g1, -, g2, -⟩ := short_gates hchip
  have s0 : Sat chip table w start (c0 ++ c1) := hs 0 (by simp)
  have s1 : Sat chip table w (start + 1) (shortCalls c start sign z21 acc mulB (signed sign.value (c.sup.add.assign (start + 1) mulB acc 0).2.y.value)) :=
    hs 1 (by simp)
  obtain ⟨hl, d, hd, e1, e2, e3, e4⟩ := sum_inner hc g1 t hB (by norm_num) (by norm_num) h1 h3 s0
  obtain ⟨h21, rfl⟩ := List.getElem?_eq_some_iff.1 h4
  have hlast := e2 21 h21
  simp only [show 22 - 21 = 1 from rfl, Finset.sum_range_one, add_zero, pow_zero, mul_one] at hlast
  have hen : Call.enable c.qShort 1 ∈ shortCalls c start sign zs[21] acc mulB (signed sign.value (c.sup.add.assign (start + 1) mulB acc 0).2.y.value) := by
    simp [shortCalls]
  have cs : w (start + 1) (.advice c.sup.window) ((1 : Nat) : Int) = w.at sign.cell :=
    sat_copy s1 (a := ⟨start + 1, 1, .advice c.sup.window⟩) (by simp [shortCalls, copyAdvice])
  have cu : w (start + 1) (.advice c.sup.u) ((1 : Nat) : Int) = w.at zs[21].cell :=
    sat_copy s1 (a := ⟨start + 1, 1, .advice c.sup.u⟩) (by simp [shortCalls, copyAdvice])
  have p1 := sat_gate s1 g2 (e := boolCheck (.advice c.sup.u 0)) (by simp [shortPolys]) hen
  have p2 := sat_gate s1 g2 (e := (Verif.Gadget.Expr.advice c.sup.window 0).square - .const 1) (by simp [shortPolys]) hen
  have p4 := sat_gate s1 g2 (e := .advice c.sup.window 0 * .advice c.sup.add.yP 0 - .advice c.sup.add.yQR 0) (by simp [shortPolys]) hen
  unfold boolCheck at p1
  rw [eval_rangeCheck _ _ _ _ (by norm_num)] at p1
  obtain ⟨m, hm, p1⟩ := p1
  simp only [eval_advice, eval_square, eval_sub, eval_mul, eval_const, add_zero] at p1 p2 p4
  rw [cu, hlast] at p1
  rw [cs] at p2 p4
  have hd21 : d 21 < 2 := by
    have h8 : 8 < pallasBase := by decide +kernel
    have := congrArg ZMod.val p1
    rw [ZMod.val_natCast_of_lt (Nat.lt_trans (hd 21) h8), ZMod.val_natCast_of_lt (by omega)] at this
    omega
  have hbound : ∑ i ∈ Finset.range 22, d i * 8 ^ i < 2 ^ 64 := by
    have key : ∀ m, ∑ i ∈ Finset.range m, d i * 8 ^ i < 8 ^ m := by
      intro m
      induction m with
      | zero => simp
      | succ m ih =>
        rw [Finset.sum_range_succ, pow_succ]
        have := Nat.mul_le_mul_right (8 ^ m) (Nat.le_of_lt_succ (hd m))
        omega
    rw [Finset.sum_range_succ]
    have := key 21
    have h2 : d 21 * 8 ^ 21 ≤ 1 * 8 ^ 21 := Nat.mul_le_mul_right _ (by omega)
    norm_num at this h2 ⊢
    omega
  have hval : (w.at magnitude.cell).val = ∑ i ∈ Finset.range 22, d i * 8 ^ i := by
    rw [e1, ZMod.val_natCast_of_lt]
    exact Nat.lt_trans hbound (by decide +kernel)
  have hadd : Holds w (c.sup.add.assign (start + 1) mulB acc 0).2 ((w.at magnitude.cell).val • B) := by
    rw [hval, ← windows_sum (B := B) (by norm_num) d]
    exact add_sound usable_pallas (shortCalls_add _ _ _ _ _) s1.enforced
      (fun e he => sat_gate s1 g1.add he (shortCalls_add _ _ _ _ _ _ (add_enable.2 ⟨rfl, rfl⟩))) e4 e3
  refine ⟨by rw [hval]; exact hbound, ?_⟩
  have hy : w.at (c.sup.add.assign (start + 1) mulB acc 0).2.y.cell = w (start + 1) (.advice c.sup.add.yQR) ((1 : Nat) : Int) := rfl
  have ha1 : w.at (c.sup.add.assign (start + 1) mulB acc 0).2.x.cell = (coords ((w.at magnitude.cell).val • B)).1 := congrArg Prod.fst hadd
  have ha2 : w.at (c.sup.add.assign (start + 1) mulB acc 0).2.y.cell = (coords ((w.at magnitude.cell).val • B)).2 := congrArg Prod.snd hadd
  rw [← hy, ha2] at p4
  have hsq : (w.at sign.cell - 1) * (w.at sign.cell + 1) = 0 := by linear_combination p2
  rcases mul_eq_zero.1 hsq with h | h
  · left
    have h : w.at sign.cell = 1 := by linear_combination h
    refine ⟨h, Prod.ext ha1 ?_⟩
    show w (start + 1) (.advice c.sup.add.yP) ((1 : Nat) : Int) = _
    rw [h] at p4
    linear_combination p4
  · right
    have h : w.at sign.cell = -1 := by linear_combination h
    refine ⟨h, ?_⟩
    unfold Holds
    rw [coords_neg]
    refine Prod.ext ha1 ?_
    show w (start + 1) (.advice c.sup.add.yP) ((1 : Nat) : Int) = _
    rw [h] at p4
    linear_combination -p4

end short

end Verif.Lemmas.Ecc
