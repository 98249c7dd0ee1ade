import Verif.Lemmas.EccFixedSum
import Verif.Lemmas.EccMulAll

/-! Multiplication of a fixed point by an element of the base field. -/

namespace Verif.Lemmas.Ecc

open Verif.Gadget Verif.Spec.Gadget Verif.Spec Verif.Spec.Ecc Verif.Spec.EccFixed Verif.Lemmas.Gadget
open Verif.FloorPlanner (Call)
open Verif.Spec.Pow5 (SatAll FollowsAll)

theorem digits_lt {d : Nat → Nat} (hd : ∀ i, d i < 8) (s : Nat) : ∀ m, ∑ i ∈ Finset.range m, d (s + i) * 8 ^ i < 8 ^ m
  | 0 => by simp
  | m + 1 => by
    rw [Finset.sum_range_succ, pow_succ]
    have ih := digits_lt hd s m
    have := Nat.mul_le_mul_right (8 ^ m) (Nat.le_of_lt_succ (hd (s + m)))
    omega

theorem pallas_eq : pallasBase = 2 ^ 254 + tP := by decide +kernel

theorem cast_inj {a b : Nat} (ha : a < pallasBase) (hb : b < pallasBase) (h : (a : Fp) = (b : Fp)) : a = b := by
  have := congrArg ZMod.val h
  rwa [ZMod.val_natCast_of_lt ha, ZMod.val_natCast_of_lt hb] at this

theorem split_gen (d : Nat → Nat) (m n : Nat) : ∑ i ∈ Finset.range (m + 1 + n + 1), d i * 8 ^ i =
    ∑ i ∈ Finset.range m, d i * 8 ^ i + d m * 8 ^ m + 8 ^ (m + 1) * ∑ j ∈ Finset.range n, d (m + 1 + j) * 8 ^ j +
      d (m + 1 + n) * 8 ^ (m + 1 + n) := by
  have e : ∑ j ∈ Finset.range n, d (m + 1 + j) * 8 ^ (m + 1 + j) = 8 ^ (m + 1) * ∑ j ∈ Finset.range n, d (m + 1 + j) * 8 ^ j := by
    rw [Finset.mul_sum]
    refine Finset.sum_congr rfl fun j _ => ?_
    rw [pow_add]
    ring
  rw [Finset.sum_range_succ, Finset.sum_range_add, Finset.sum_range_succ _ m, e]

theorem split_low (d : Nat → Nat) (s n : Nat) : ∑ j ∈ Finset.range (n + 1), d (s + j) * 8 ^ j =
    d s + 8 * ∑ j ∈ Finset.range n, d (s + 1 + j) * 8 ^ j := by
  rw [Finset.sum_range_succ', Finset.mul_sum, add_comm]
  congr 1
  · simp
  · refine Finset.sum_congr rfl fun j _ => ?_
    rw [show s + (j + 1) = s + 1 + j by omega, pow_succ]
    ring

/-- The parts of a number of 85 digits. -/
theorem split_digits (d : Nat → Nat) : ∑ i ∈ Finset.range 85, d i * 8 ^ i =
    ∑ i ∈ Finset.range 43, d i * 8 ^ i + d 43 * 8 ^ 43 + 8 ^ 44 * ∑ j ∈ Finset.range 40, d (44 + j) * 8 ^ j + d 84 * 8 ^ 84 :=
  split_gen d 43 40

/-- The checks leave only the canonical representative. -/
theorem canonical {d : Nat → Nat} (hd : ∀ i, d i < 8) {a z43 z44 z84 z13 prime : Fp} {a1 a2 M : Nat}
    (ha : a = ((∑ i ∈ Finset.range 85, d i * 8 ^ i : Nat) : Fp))
    (h43 : z43 = ((∑ j ∈ Finset.range 42, d (43 + j) * 8 ^ j : Nat) : Fp))
    (h44 : z44 = ((∑ j ∈ Finset.range 41, d (44 + j) * 8 ^ j : Nat) : Fp)) (h84 : z84 = (d 84 : Fp)) (h1 : a1 < 4) (h2 : a2 < 2)
    (hM : M < 2 ^ 130) (g1 : (a2 : Fp) * (a1 : Fp) = 0) (g2 : (a2 : Fp) * (z44 - z84 * ((2 ^ 60 : Nat) : Fp) ^ 2) = 0)
    (g3 : a2 = 1 → ∃ m : Nat, m < 2 ∧ z43 - z44 * 8 = (m : Fp)) (g4 : (a2 : Fp) * z13 = 0)
    (g5 : z84 - ((a1 : Fp) + (a2 : Fp) * 4) = 0)
    (g6 : prime - (a - z84 * ((2 ^ 126 : Nat) : Fp) ^ 2 + ((2 ^ 65 : Nat) : Fp) ^ 2 - ((tP : Nat) : Fp)) = 0)
    (g7 : prime = (M : Fp) + 2 ^ 130 * z13) : a.val = ∑ i ∈ Finset.range 85, d i * 8 ^ i := by
  have hp := pallas_eq
  have ht : tP < 2 ^ 126 := by decide +kernel
  rw [ha]
  apply ZMod.val_natCast_of_lt
  have e84 : d 84 = a1 + a2 * 4 := by
    have := hd 84
    refine cast_inj (by omega) (by omega) ?_
    rw [← h84]
    push_cast
    linear_combination g5
  have hL := digits_lt hd 0 43
  simp only [Nat.zero_add] at hL
  have hH := digits_lt hd 44 40
  have h43' := hd 43
  rw [split_digits] at ha ⊢
  generalize hLd : ∑ i ∈ Finset.range 43, d i * 8 ^ i = L at *
  generalize hHd : ∑ j ∈ Finset.range 40, d (44 + j) * 8 ^ j = H at *
  interval_cases a2
  · have : d 84 ≤ 3 := by omega
    norm_num at hL hH hp ⊢
    omega
  · have e1 : a1 = 0 := cast_inj (by omega) (by omega) (by simpa using g1)
    subst e1
    have e43 : z43 = (d 43 : Fp) + 8 * z44 := by
      rw [h43, h44, split_low d 43 41]
      push_cast
      rfl
    rw [Finset.sum_range_succ, hHd] at h44
    have e2 : H = 0 := by
      refine cast_inj (by norm_num at hH hp ⊢; omega) (by omega) ?_
      rw [h44, h84] at g2
      push_cast at g2 ⊢
      norm_num at g2 ⊢
      exact g2
    obtain ⟨m, hm, e3⟩ := g3 rfl
    have e4 : d 43 = m := by
      refine cast_inj (by omega) (by omega) ?_
      rw [← e3, e43, h44]
      push_cast
      ring
    have e5 : z13 = 0 := by simpa using g4
    have e6 : L + d 43 * 8 ^ 43 + 2 ^ 130 - tP = M := by
      refine cast_inj (by norm_num at hL ⊢; omega) (by omega) ?_
      rw [Nat.cast_sub (by omega)]
      rw [e5] at g7
      rw [ha, h84, e84, e2] at g6
      push_cast at g6 g7 ⊢
      linear_combination g7 - g6
    norm_num at e6 hL ht hp ⊢
    omega

section base

variable {c : MulBaseField} {w : Content Fp} {start : Nat} {base : FixedBase pallasBase} {B : Pt (5 : Fp)}
  {scalar : Assigned Fp} {table : Nat → List Fp} {chip : Chip Fp}

theorem base_gates (h : c.chip (5 : Fp) = .ok chip) : HasGates c.sup chip ∧ chip.lookups = (c.lookup.chip 10 : Chip Fp).lookups ∧
    (∀ g ∈ (c.lookup.chip 10 : Chip Fp).gates, g ∈ chip.gates) ∧ (c.qBase, c.polys) ∈ chip.gates ∧
    ∀ g ∈ chip.gates, g = (c.sup.runningSum.qRangeCheck, [rangeCheck (Verif.Gadget.Expr.advice c.sup.runningSum.z 0 -
      .scaled (.advice c.sup.runningSum.z 1) ((2 : Fp) ^ 3)) (2 ^ 3)]) ∨
      g = (c.sup.runningSum.qRangeCheck, c.sup.coordsCheck (5 : Fp) (wordOf c.sup)) ∨ g = (c.sup.add.qAdd, c.sup.add.polys) ∨
      g ∈ (c.sup.addIncomplete.chip : Chip Fp).gates ∨ g ∈ (c.lookup.chip 10 : Chip Fp).gates ∨ g = (c.qBase, c.polys) := by
  unfold MulBaseField.chip at h
  obtain ⟨sup, h1, h⟩ := bind_ok h
  obtain ⟨g1, g2, g3⟩ := fixed_gates h1
  simp only [pure, Except.pure, Except.ok.injEq] at h
  subst h
  refine ⟨⟨?_, ?_, ?_, ?_⟩, rfl, ?_, ?_, fun g hg => ?_⟩
  · exact List.mem_append_left _ (List.mem_append_left _ g1.range)
  · exact List.mem_append_left _ (List.mem_append_left _ g1.coords)
  · exact List.mem_append_left _ (List.mem_append_left _ g1.add)
  · exact fun g hg => List.mem_append_left _ (List.mem_append_left _ (g1.inc g hg))
  · exact fun g hg => List.mem_append_left _ (List.mem_append_right _ hg)
  · exact List.mem_append_right _ (List.mem_singleton.2 rfl)
  · rcases List.mem_append.1 hg with hg | hg
    · rcases List.mem_append.1 hg with hg | hg
      · rcases g3 g hg with h | h | h | h
        · exact Or.inl h
        · exact Or.inr (Or.inl h)
        · exact Or.inr (Or.inr (Or.inl h))
        · exact Or.inr (Or.inr (Or.inr (Or.inl h)))
      · exact Or.inr (Or.inr (Or.inr (Or.inr (Or.inl hg))))
    · exact Or.inr (Or.inr (Or.inr (Or.inr (Or.inr (List.mem_singleton.1 hg)))))

theorem witnessCheck_split {c : RangeCheck} {k region : Nat} {v : Option Fp} {strict : Bool} {n : Nat}
    {calls : Calls Fp} {zs : List (Assigned Fp)} (h : c.witnessCheck k region v n strict = .ok (calls, zs)) :
    ∃ more, c.rangeCheck k region ⟨⟨region, 0, .advice c.runningSum⟩, v⟩ n strict = .ok (more, zs) ∧
      calls = [.advice c.runningSum 0 v] ++ more := by
  unfold RangeCheck.witnessCheck assignAdvice at h
  obtain ⟨⟨more, zs'⟩, h1, h2⟩ := bind_ok h
  simp only [pure, Except.pure, Except.ok.injEq, Prod.mk.injEq] at h2
  exact ⟨more, by rw [h1, h2.2], h2.1.symm⟩

/-- The calls of the last region. -/
def baseCalls (c : MulBaseField) (r : Nat) (alpha z84 prime z13 z44 z43 : Assigned Fp) (a1 a2 : Option Fp) : Calls Fp :=
  .enable c.qBase 1 :: ((copyAdvice r alpha (c.canon 0) 0).1 ++ (copyAdvice r z84 (c.canon 2) 0).1 ++
    (copyAdvice r prime (c.canon 0) 1).1 ++ (assignAdvice r (c.canon 1) 1 a1).1 ++
    (assignAdvice r (c.canon 2) 1 a2).1 ++ (copyAdvice r z13 (c.canon 0) 2).1 ++
    (copyAdvice r z44 (c.canon 1) 2).1 ++ (copyAdvice r z43 (c.canon 2) 2).1)

/-- What is checked by lookups. -/
def primeOf (alpha z84 : Option Fp) : Option Fp := do
  let a ← alpha
  let z ← z84
  return a - z * ((2 ^ 126 : Nat) : Fp) ^ 2 + ((2 ^ 65 : Nat) : Fp) ^ 2 - ((tP : Nat) : Fp)

theorem base_split {regions : List (Calls Fp)} {out : EccPoint Fp}
    (h : c.assign (q := vestaBase) start scalar base = .ok (regions, out)) : ∃ c0 zs ks c1 acc mulB alpha z43 z44 z84 c2 sums prime z13 a1 a2,
      c.sup.runningSum.copy 3 start 0 scalar true 255 85 = .ok (c0, zs) ∧ MulFixed.sumWindows (q := vestaBase) zs = .ok ks ∧
      c.sup.inner 85 start 0 base c.sup.runningSum.qRangeCheck ks = .ok (c1, acc, mulB) ∧
      zs[0]? = some alpha ∧ zs[43]? = some z43 ∧ zs[44]? = some z44 ∧ zs[84]? = some z84 ∧
      c.lookup.witnessCheck 10 (start + 2) (primeOf alpha.value z84.value) 13 false = .ok (c2, sums) ∧
      sums[0]? = some prime ∧ sums[13]? = some z13 ∧
      (onKnown alpha.value fun a => bitrangeSubset a 252 254) = .ok a1 ∧ (onKnown alpha.value fun a => bitrangeSubset a 254 255) = .ok a2 ∧
      regions = [c0 ++ c1, (c.sup.add.assign (start + 1) mulB acc 0).1, c2, baseCalls c (start + 3) alpha z84 prime z13 z44 z43 a1 a2] ∧
      out = (c.sup.add.assign (start + 1) mulB acc 0).2 := by
  unfold MulBaseField.assign at h
  obtain ⟨⟨c0, zs⟩, h1, h⟩ := bind_ok h
  obtain ⟨ks, h2, h⟩ := bind_ok h
  obtain ⟨⟨c1, acc, mulB⟩, h3, h⟩ := bind_ok h
  simp only at h h2
  split at h
  · rename_i alpha z43 z44 z84 i1 i2 i3 i4
    obtain ⟨⟨c2, sums⟩, h4, h⟩ := bind_ok h
    simp only at h
    split at h
    · rename_i prime z13 j1 j2
      obtain ⟨a1, h5, h⟩ := bind_ok h
      obtain ⟨a2, h6, h⟩ := bind_ok h
      simp only [pure, Except.pure, Except.ok.injEq, Prod.mk.injEq] at h
      exact ⟨c0, zs, ks, c1, acc, mulB, alpha, z43, z44, z84, c2, sums, prime, z13, a1, a2, h1, h2, h3, i1, i2, i3, i4, h4, j1, j2,
        h5, h6, h.1.symm, h.2.symm⟩
    · cases h
  · cases h

/-- Multiplication by an element of the base field. -/
theorem base_sound (hc : c.sup.runningSum.z = c.sup.window) (ht : IsTable 10 (table c.lookup.tableIdx)) (hchip : c.chip (5 : Fp) = .ok chip)
    (t : TableOf 85 B base) (hB : B ≠ 0) {regions : List (Calls Fp)} {out : EccPoint Fp}
    (h : c.assign (q := vestaBase) start scalar base = .ok (regions, out))
    (hs : SatAll chip table w start regions) : Holds w out ((w.at scalar.cell).val • B) := by
  obtain ⟨c0, zs, ks, c1, acc, mulB, alpha, z43, z44, z84, c2, sums, prime, z13, a1, a2, h1, -, h3, i1, i2, i3, i4, h4, j1, j2,
    -, -, rfl, rfl⟩ := base_split h
  obtain ⟨g1, gl, g2, g3, -⟩ := base_gates hchip
  have s0 : Sat chip table w start (c0 ++ c1) := hs 0 (by simp)
  have s1 : Sat chip table w (start + 1) (c.sup.add.assign (start + 1) mulB acc 0).1 := hs 1 (by simp)
  have s2 : Sat chip table w (start + 2) c2 := hs 2 (by simp)
  have s3 : Sat chip table w (start + 3) (baseCalls c (start + 3) alpha z84 prime z13 z44 z43 a1 a2) := hs 3 (by simp)
  obtain ⟨hl, d, hd, e1, e2, e3, e4⟩ := sum_inner hc g1 t hB (by norm_num) (by norm_num) h1 h3 s0
  obtain ⟨k1, rfl⟩ := List.getElem?_eq_some_iff.1 i1
  obtain ⟨k2, rfl⟩ := List.getElem?_eq_some_iff.1 i2
  obtain ⟨k3, rfl⟩ := List.getElem?_eq_some_iff.1 i3
  obtain ⟨k4, rfl⟩ := List.getElem?_eq_some_iff.1 i4
  obtain ⟨more, h5, rfl⟩ := witnessCheck_split h4
  obtain ⟨l1, l2, l3, -⟩ := rangeCheck_sound ht rfl h5 (sat_mono g2 (fun l hl => by rw [gl]; exact hl) s2)
  obtain ⟨m1, rfl⟩ := List.getElem?_eq_some_iff.1 j1
  obtain ⟨m2, rfl⟩ := List.getElem?_eq_some_iff.1 j2
  obtain ⟨M, hM, l4⟩ := sum_open 13 (fun i => w (start + 2) (.advice c.lookup.runningSum) (i : Int)) l3
  rw [← l2 0 m1, ← l2 13 m2] at l4
  have cell : ∀ (col o : Nat) (a : Assigned Fp), Call.equal ⟨start + 3, o, .advice col⟩ a.cell ∈
      baseCalls c (start + 3) zs[0] zs[84] sums[0] sums[13] zs[44] zs[43] a1 a2 →
      w (start + 3) (.advice col) (o : Int) = w.at a.cell := fun col o a hm => sat_copy s3 hm
  have q1 := cell (c.canon 0) 0 zs[0] (by simp [baseCalls, copyAdvice])
  have q2 := cell (c.canon 2) 0 zs[84] (by simp [baseCalls, copyAdvice])
  have q3 := cell (c.canon 0) 1 sums[0] (by simp [baseCalls, copyAdvice])
  have q4 := cell (c.canon 0) 2 sums[13] (by simp [baseCalls, copyAdvice])
  have q5 := cell (c.canon 1) 2 zs[44] (by simp [baseCalls, copyAdvice])
  have q6 := cell (c.canon 2) 2 zs[43] (by simp [baseCalls, copyAdvice])
  have gate := fun e he => sat_gate s3 g3 (e := e) he (o := 1) (by simp [baseCalls])
  simp only [MulBaseField.polys, List.forall_mem_cons] at gate
  obtain ⟨p1, p2, p3, p4, p5, p6, p7, p8, -⟩ := gate
  unfold boolCheck at p6
  rw [eval_rangeCheck _ _ _ _ (by norm_num)] at p5 p6
  obtain ⟨b1, hb1, p5⟩ := p5
  obtain ⟨b2, hb2, p6⟩ := p6
  rw [eval_mul] at p3
  have r0 : ((1 : Nat) : Int) + -1 = ((0 : Nat) : Int) := by norm_num
  have r1 : ((1 : Nat) : Int) + 0 = ((1 : Nat) : Int) := by norm_num
  have r2 : ((1 : Nat) : Int) + 1 = ((2 : Nat) : Int) := by norm_num
  simp only [eval_advice, r1] at p3 p5 p6
  simp only [eval_sub, eval_add, eval_mul, eval_const, eval_advice, eval_scaled, r0, r1, r2, q1, q2, q3, q4, q5, p5, p6] at p1 p2 p4 p7 p8
  rw [p6] at p3
  have f0 := e2 0 k1
  have f84 := e2 84 k4
  simp only [Nat.sub_zero, Nat.zero_add] at f0
  simp only [show 85 - 84 = 1 from rfl, Finset.sum_range_one, add_zero, pow_zero, mul_one] at f84
  have hzero : w.at zs[0].cell = w.at scalar.cell := f0.trans e1.symm
  have hval := canonical hd (a := w.at zs[0].cell) f0 (e2 43 k2) (e2 44 k3) f84 hb1 hb2 hM
    p1 p2 (fun hb => by
      subst hb
      rw [Nat.cast_one, one_mul] at p3
      unfold boolCheck at p3
      rw [eval_rangeCheck _ _ _ _ (by norm_num)] at p3
      obtain ⟨m, hm, p3⟩ := p3
      refine ⟨m, hm, ?_⟩
      simp only [eval_sub, eval_advice, eval_scaled, r2, q5, q6] at p3
      exact p3) p4 p7 p8 l4
  rw [← hzero, hval, ← windows_sum (B := B) (by norm_num) d]
  exact add_sound usable_pallas (fun _ h => h) s1.enforced
    (fun e he => sat_gate s1 g1.add he (add_enable.2 ⟨rfl, rfl⟩)) e4 e3

end base

end Verif.Lemmas.Ecc
