import Verif.Lemmas.EccFixedBaseDone

/-! What multiplication of a fixed point by what is in a running sum calls does not depend on values. -/

namespace Verif.Lemmas.Ecc

open Verif.Gadget Verif.Spec.Gadget Verif.Spec Verif.Spec.Ecc Verif.Spec.EccFixed Verif.Lemmas.Gadget
open Verif.FloorPlanner (Call)

theorem sumCopy_same {p : Nat} {c : RunningSum} {k region offset : Nat} {a a' : Assigned (ZMod p)} (ha : a.cell = a'.cell) {strict : Bool}
    {wordBits n : Nat} {calls calls' : Calls (ZMod p)} {zs zs' : List (Assigned (ZMod p))}
    (h : c.copy k region offset a strict wordBits n = .ok (calls, zs))
    (h' : c.copy k region offset a' strict wordBits n = .ok (calls', zs')) :
    List.Forall₂ SameCall calls calls' ∧ List.Forall₂ SameCell zs zs' := by
  obtain ⟨more, h1, rfl⟩ := copy_split h
  obtain ⟨more', h1', rfl⟩ := copy_split h'
  obtain ⟨_, _, words, hlen, _, hzs, hcalls⟩ := decompose_shape h1
  obtain ⟨_, _, words', hlen', _, hzs', hcalls'⟩ := decompose_shape h1'
  constructor
  · refine List.Forall₂.cons (.advice ..) (List.Forall₂.cons (by rw [ha]; exact .refl _) ?_)
    show List.Forall₂ SameCall more more'
    rw [hcalls, hcalls']
    refine List.rel_append (List.rel_append ?_ ?_) ?_
    · exact List.forall₂_same.2 fun x _ => .refl x
    · rw [List.forall₂_map_left_iff, List.forall₂_map_right_iff, List.forall₂_iff_get]
      refine ⟨by rw [sumCells_length, sumCells_length, hlen, hlen'], fun i hi hi' => ?_⟩
      simp only [List.get_eq_getElem, sumCells_cell]
      exact .advice ..
    · rw [hzs, hzs', last_cell rfl, last_cell rfl, hlen, hlen']
      exact List.forall₂_same.2 fun x _ => .refl x
  · rw [hzs, hzs', List.forall₂_iff_get]
    refine ⟨by simp only [List.length_cons, sumCells_length, hlen, hlen'], fun i hi hi' => ?_⟩
    simp only [List.get_eq_getElem]
    show _ = _
    rw [zs_cells rfl, zs_cells rfl]

theorem witnessCheck_same {o : RangeCheck} {region : Nat} {v v' : Option Fp} {calls calls' : Calls Fp} {zs zs' : List (Assigned Fp)}
    (h : o.witnessCheck 10 region v 13 false = .ok (calls, zs)) (h' : o.witnessCheck 10 region v' 13 false = .ok (calls', zs')) :
    List.Forall₂ SameCall calls calls' ∧ List.Forall₂ SameCell zs zs' := by
  have lift : ∀ {v : Option Fp} {calls : Calls Fp} {zs : List (Assigned Fp)}, o.witnessCheck 10 region v 13 false = .ok (calls, zs) →
      ∃ more, calls = [.advice o.runningSum 0 v] ++ more ∧ o.copyCheck 10 region ⟨⟨region, 0, .advice o.runningSum⟩, v⟩ 13 false =
        .ok ([.advice o.runningSum 0 v, .equal ⟨region, 0, .advice o.runningSum⟩ ⟨region, 0, .advice o.runningSum⟩] ++ more, zs) := by
    intro v calls zs h
    obtain ⟨more, h1, rfl⟩ := witnessCheck_split h
    refine ⟨more, rfl, ?_⟩
    unfold RangeCheck.copyCheck copyAdvice
    simp only
    rw [h1]
    rfl
  obtain ⟨more, rfl, h1⟩ := lift h
  obtain ⟨more', rfl, h1'⟩ := lift h'
  obtain ⟨i1, i2⟩ := copyCheck_same (a := ⟨⟨region, 0, .advice o.runningSum⟩, v⟩) (a' := ⟨⟨region, 0, .advice o.runningSum⟩, v'⟩) rfl h1 h1'
  refine ⟨.cons (.advice ..) ?_, i2⟩
  simp only [List.cons_append, List.nil_append] at i1
  cases i1 with
  | cons _ i1 =>
    cases i1 with
    | cons _ i1 => exact i1

theorem same_get {zs zs' : List (Assigned Fp)} (h : List.Forall₂ SameCell zs zs') {i : Nat} {z z' : Assigned Fp}
    (hz : zs[i]? = some z) (hz' : zs'[i]? = some z') : z.cell = z'.cell := by
  obtain ⟨k, rfl⟩ := List.getElem?_eq_some_iff.1 hz
  obtain ⟨k', rfl⟩ := List.getElem?_eq_some_iff.1 hz'
  exact (List.forall₂_iff_get.1 h).2 i k k'

section short

variable {c : MulShort} {start : Nat} {base : FixedBase pallasBase} {magnitude magnitude' sign sign' : Assigned Fp}

theorem short_same (hm : magnitude.cell = magnitude'.cell) (hs : sign.cell = sign'.cell) {regions regions' : List (Calls Fp)}
    {out out' : EccPoint Fp} {zs zs' : List (Assigned Fp)}
    (h : c.assign (q := vestaBase) start magnitude sign base = .ok (regions, out, zs))
    (h' : c.assign (q := vestaBase) start magnitude' sign' base = .ok (regions', out', zs')) :
    List.Forall₂ (List.Forall₂ SameCall) regions regions' ∧ SameCells out out' ∧ List.Forall₂ SameCell zs zs' := by
  obtain ⟨c0, ks, c1, acc, mulB, z21, h1, -, h3, h4, rfl, rfl⟩ := short_split h
  obtain ⟨c0', ks', c1', acc', mulB', z21', h1', -, h3', h4', rfl, rfl⟩ := short_split h'
  obtain ⟨i1, i2⟩ := sumCopy_same hm h1 h1'
  obtain ⟨j1, j2, j3⟩ := inner_same h3 h3'
  obtain ⟨k1, k2⟩ := add_same (c := c.sup.add) (region := start + 1) (offset := 0) j3 j2
  refine ⟨.cons (List.rel_append i1 j1) (.cons ?_ .nil), ⟨k2.1, rfl⟩, i2⟩
  unfold shortCalls
  exact List.rel_append (List.rel_append (List.rel_append (List.rel_append k1 (copy_same hs)) (copy_same (same_get i2 h4 h4')))
    (.cons (.refl _) .nil)) (.cons (.advice ..) .nil)

end short

section base

variable {c : MulBaseField} {start : Nat} {base : FixedBase pallasBase} {scalar scalar' : Assigned Fp}

theorem base_same (hm : scalar.cell = scalar'.cell) {regions regions' : List (Calls Fp)} {out out' : EccPoint Fp}
    (h : c.assign (q := vestaBase) start scalar base = .ok (regions, out))
    (h' : c.assign (q := vestaBase) start scalar' base = .ok (regions', out')) :
    List.Forall₂ (List.Forall₂ SameCall) regions regions' ∧ SameCells out out' := by
  obtain ⟨c0, zs, ks, c1, acc, mulB, alpha, z43, z44, z84, c2, sums, prime, z13, a1, a2, h1, -, h3, l1, l2, l3, l4, h4, m1, m2,
    -, -, rfl, rfl⟩ := base_split h
  obtain ⟨c0', zs', ks', c1', acc', mulB', alpha', z43', z44', z84', c2', sums', prime', z13', a1', a2', h1', -, h3', l1', l2', l3', l4', h4',
    m1', m2', -, -, rfl, rfl⟩ := base_split h'
  obtain ⟨i1, i2⟩ := sumCopy_same hm h1 h1'
  obtain ⟨j1, j2, j3⟩ := inner_same h3 h3'
  obtain ⟨k1, k2⟩ := add_same (c := c.sup.add) (region := start + 1) (offset := 0) j3 j2
  obtain ⟨n1, n2⟩ := witnessCheck_same h4 h4'
  refine ⟨.cons (List.rel_append i1 j1) (.cons k1 (.cons n1 (.cons ?_ .nil))), k2⟩
  unfold baseCalls assignAdvice
  refine .cons (.refl _) ?_
  exact List.rel_append (List.rel_append (List.rel_append (List.rel_append (List.rel_append (List.rel_append (List.rel_append
    (copy_same (same_get i2 l1 l1')) (copy_same (same_get i2 l4 l4'))) (copy_same (same_get n2 m1 m1'))) (.cons (.advice ..) .nil))
    (.cons (.advice ..) .nil)) (copy_same (same_get n2 m2 m2'))) (copy_same (same_get i2 l3 l3'))) (copy_same (same_get i2 l2 l2'))

end base

/-! Keys are made with nothing known. -/

theorem sumWindows_none : ∀ (l : List (Assigned Fp)), (∀ a ∈ l, a.value = none) →
    MulFixed.sumWindows (q := vestaBase) l = .ok (List.replicate (l.length - 1) none)
  | [], _ => rfl
  | [_], _ => rfl
  | a :: b :: l, h => by
    have ih := sumWindows_none (b :: l) fun x hx => h x (List.mem_cons_of_mem _ hx)
    unfold MulFixed.sumWindows at ih ⊢
    have e1 : (onKnown (do let cur ← a.value; let next ← b.value; return cur - next * 8) fun v => (do
        assert (v.val < vestaBase)
        return ((v.val : Nat) : ZMod vestaBase) : Except Stop _)) = .ok none := by
      rw [h a List.mem_cons_self]
      rfl
    simp only [List.drop_succ_cons, List.drop_zero, List.zip_cons_cons] at ih ⊢
    rw [List.mapM_cons, e1, ok_then, ih]
    simp only [List.length_cons, Nat.add_sub_cancel, List.replicate_succ]
    rfl

theorem sumCells_none {region col offset : Nat} {inv : Fp} : ∀ (m i : Nat) (z : Assigned Fp), z.value = none →
    ∀ a ∈ sumCells region col offset inv i z (List.replicate m none), a.value = none
  | 0, _, _, _, a, h => by simp [sumCells] at h
  | m + 1, i, z, hz, a, h => by
    rw [List.replicate_succ, sumCells] at h
    rcases List.mem_cons.1 h with rfl | h
    · simp [bind, Option.bind, hz]
    · exact sumCells_none m (i + 1) _ (by simp [bind, Option.bind, hz]) a h

theorem sumCopy_none {c : RunningSum} {start bits n : Nat} {a : Assigned Fp} (ha : a.value = none) (hn : 3 * n < bits + 3) :
    ∃ c0 zs, c.copy 3 start 0 a true bits n = .ok (c0, zs) ∧ zs.length = n + 1 ∧ ∀ z ∈ zs, z.value = none := by
  have h8 : (2 : Fp) ^ 3 ≠ 0 := by decide +kernel
  unfold RunningSum.copy copyAdvice RunningSum.decompose
  simp only
  rw [assert_ok.2 (by simpa using hn), ok_then]
  simp only [ha, onKnown]
  rw [ok_then]
  simp only [transposeVec]
  rw [ok_then, assert_ok.2 (by simpa using h8), ok_then, assert_ok.2 (by simp [sumCells_length]), ok_then]
  refine ⟨_, _, rfl, by simp [sumCells_length], fun z hz => ?_⟩
  rcases List.mem_cons.1 hz with rfl | hz
  · rfl
  · refine sumCells_none (region := start) (col := c.z) (offset := 0) (inv := ((2 : Fp) ^ 3)⁻¹) n 0 ⟨⟨start, 0, .advice c.z⟩, none⟩ rfl z ?_
    simpa using hz

theorem short_total {c : MulShort} {start : Nat} {base : FixedBase pallasBase} {magnitude sign : Assigned Fp} (hm : magnitude.value = none)
    (hs : base.lagrange.length = 22 ∧ base.z.length = 22 ∧ base.u.length = 22) :
    ∃ r, c.assign (q := vestaBase) start magnitude sign base = .ok r := by
  obtain ⟨c0, zs, h1, h2, h3⟩ := sumCopy_none (c := c.sup.runningSum) (start := start) (bits := 64) (n := 22) hm (by norm_num)
  obtain ⟨c1, acc, mulB, h4⟩ := inner_total (c := c.sup) (region := start) (offset := 0) (toggle := c.sup.runningSum.qRangeCheck) (by norm_num) hs
  have h5 := sumWindows_none zs h3
  rw [h2] at h5
  unfold MulShort.assign
  rw [h1, ok_then]
  simp only
  rw [h5, ok_then, h4, ok_then]
  simp only [List.getElem?_eq_getElem (show 21 < zs.length by omega)]
  exact ⟨_, rfl⟩

theorem base_total {c : MulBaseField} {start : Nat} {base : FixedBase pallasBase} {scalar : Assigned Fp} (hm : scalar.value = none)
    (hs : base.lagrange.length = 85 ∧ base.z.length = 85 ∧ base.u.length = 85) :
    ∃ r, c.assign (q := vestaBase) start scalar base = .ok r := by
  obtain ⟨c0, zs, h1, h2, h3⟩ := sumCopy_none (c := c.sup.runningSum) (start := start) (bits := 255) (n := 85) hm (by norm_num)
  obtain ⟨c1, acc, mulB, h4⟩ := inner_total (c := c.sup) (region := start) (offset := 0) (toggle := c.sup.runningSum.qRangeCheck) (by norm_num) hs
  have h5 := sumWindows_none zs h3
  rw [h2] at h5
  have k0 : 0 < zs.length := by omega
  have k43 : 43 < zs.length := by omega
  have k44 : 44 < zs.length := by omega
  have k84 : 84 < zs.length := by omega
  have hv0 : zs[0].value = none := h3 _ (List.getElem_mem k0)
  obtain ⟨c2, sums, h6, hl⟩ := copyCheck_total c.lookup (start + 2) ⟨⟨start + 2, 0, .advice c.lookup.runningSum⟩, none⟩
  obtain ⟨more, -, h7⟩ := witnessCheck_of h6
  unfold MulBaseField.assign
  rw [h1, ok_then]
  simp only
  rw [h5, ok_then, h4, ok_then]
  simp only [List.getElem?_eq_getElem k0, List.getElem?_eq_getElem k43, List.getElem?_eq_getElem k44, List.getElem?_eq_getElem k84]
  have h8 : c.lookup.witnessCheck 10 (start + 2) (primeOf zs[0].value zs[84].value) 13 false =
      .ok ([.advice c.lookup.runningSum 0 none] ++ more, sums) := by
    rw [hv0]; exact h7
  unfold primeOf at h8
  rw [h8, ok_then]
  simp only [List.getElem?_eq_getElem (show 0 < sums.length by omega), List.getElem?_eq_getElem (show 13 < sums.length by omega), hv0]
  exact ⟨_, rfl⟩

end Verif.Lemmas.Ecc
